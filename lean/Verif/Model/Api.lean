import Mathlib.Data.List.Basic
import Mathlib.Data.Int.Basic
import Mathlib.Tactic.Linarith

/-!
# Model of the C API: error codes, exceptions, handles, the legacy interface

What the functions do inside the library is a parameter (`Except Exc ..`: the exception
it raises, or its result); modelled is how results and exceptions reach the caller.
The caller's output arguments are part of the model: a call returns them, changed or not.
-/

namespace MD.Api

/-- The exceptions that can be raised inside the library: the classes of
source/Misc.hpp:555-570, and any other one (`std::invalid_argument` and
`std::out_of_range` of `std::stoi`, `std::bad_alloc`, the string literals thrown at
source/Waves.cpp:520-558). -/
inductive Exc
  | inputFile | outputFile | input | nan | mem | value | notImplemented | unhandled
  | foreign
deriving DecidableEq, Repr

/-- What a caller of a C function sees: it returns an error code, the output arguments
being left as given; or an exception leaves the function (a C program is terminated);
or the behaviour is undefined. -/
inductive Call (α : Type)
  | returns (code : ℤ) (out : α)
  | escapes (e : Exc)
  | undefined
deriving DecidableEq, Repr

/-- The macro `MOORDYN_THROW`, source/Misc.hpp:574-602, with the numbers of
source/MoorDynAPI.h:143-159. -/
def throwErr (err : ℤ) : Except Exc Unit :=
  if err = 0 then .ok ()
  else if err = -1 then .error .inputFile
  else if err = -2 then .error .outputFile
  else if err = -3 then .error .input
  else if err = -4 then .error .nan
  else if err = -5 then .error .mem
  else if err = -6 then .error .value
  else if err = -7 then .error .notImplemented
  else .error .unhandled

/-- The macro `MOORDYN_CATCHER`, source/Misc.hpp:608-643: the code of a caught exception;
`none`: there is no handler. -/
def catcher : Exc → Option ℤ
  | .inputFile => some (-1)
  | .outputFile => some (-2)
  | .input => some (-3)
  | .nan => some (-4)
  | .mem => some (-5)
  | .value => some (-6)
  | .unhandled => some (-255)
  | .notImplemented => none
  | .foreign => none

variable {α β : Type}

/-- The body of most API functions: `err = MOORDYN_SUCCESS; try { body }
MOORDYN_CATCHER(err, err_msg); return err`, e.g. source/MoorDyn2.cpp:2451-2466,
source/Line.cpp:1673-1684.  `none` as a result of the body: undefined behaviour. -/
def guarded (out : α) (body : Except Exc (Option α)) : Call α :=
  match body with
  | .ok (some a) => .returns 0 a
  | .ok none => .undefined
  | .error e =>
    match catcher e with
    | some c => .returns c out
    | none => .escapes e

/-- A body without `try`, e.g. source/MoorDyn2.cpp:2369-2374. -/
def bare (body : Except Exc (Option α)) : Call α :=
  match body with
  | .ok (some a) => .returns 0 a
  | .ok none => .undefined
  | .error e => .escapes e

/-- `CHECK_SYSTEM`, `CHECK_LINE`, `CHECK_POINT`, `CHECK_ROD`, `CHECK_BODY`,
`CHECK_WAVES`, `CHECK_SEAFLOOR`: source/MoorDyn2.cpp:2353-2358, source/Line.cpp:1560-1565,
source/Point.cpp:490-495, source/Rod.cpp:1582-1587, source/Body.cpp:793-798.  A null
handle is `none`. -/
def checked {H : Type} (h : Option H) (out : α) (f : H → Call α) : Call α :=
  match h with
  | none => .returns (-6) out
  | some x => f x

/-! ## Creation and destruction -/

/-- The constructor of the system, source/MoorDyn2.cpp:141-146: `read` is what
`ReadInFile` does, `sys` the system it builds. -/
def construct {S : Type} (read : Except Exc ℤ) (sys : S) : Except Exc S := do
  let err ← read
  throwErr err
  return sys

/-- `MoorDyn_Create`, source/MoorDyn2.cpp:2330-2350.  The result is the handle, returned
here as the output argument (null if an exception was caught). -/
def create {S : Type} (read : Except Exc ℤ) (sys : S) : Call (Option S) :=
  match construct read sys with
  | .ok s => .returns 0 (some s)
  | .error e =>
    match catcher e with
    | some c => .returns c none
    | none => .escapes e

/-! ## Initialisation and time steps -/

/-- A loop (or sequence) of guarded stages with `if (err != MOORDYN_SUCCESS) return err`,
e.g. source/MoorDyn2.cpp:690-706.  The stages that are run, and how they end: `none` when
all of them succeed. -/
def stages : List (Except Exc Unit) → ℕ × Option (Call Unit)
  | [] => (0, none)
  | s :: ss =>
    match s with
    | .ok () => let (n, r) := stages ss; (n + 1, r)
    | .error e =>
      match catcher e with
      | some c => (1, some (.returns c ()))
      | none => (1, some (.escapes e))

/-- The work of a step of `MoorDyn_Step`, as far as it can fail. -/
structure StepRun where
  /-- `initiateStep` of the coupled objects -/
  initiate : Except Exc Unit
  /-- the internal steps of the integrator -/
  substeps : List (Except Exc Unit)
  /-- the failures that are triggered -/
  detach : List (Except Exc Unit)
  /-- whether a row is to be written -/
  row : Bool
  /-- whether the main output file is open -/
  fileOpen : Bool
  /-- the output channels -/
  channels : List (Except Exc Unit)
  /-- the code of `GetForces` -/
  forces : ℤ

/-- `AllOutput`, source/MoorDyn2.cpp:2278-2317 (the individual files of lines, rods and
bodies raise no exceptions). -/
def allOutput (r : StepRun) : Call Unit :=
  if r.row then
    if r.fileOpen then ((stages r.channels).2).getD (.returns 0 ())
    else .returns (-2) ()
  else .returns 0 ()

/-- `MoorDyn_Step` with a positive step, source/MoorDyn2.cpp:606-747 and 2415-2424. -/
def step (r : StepRun) : Call Unit :=
  match r.initiate with
  | .error e => .escapes e
  | .ok () =>
    match (stages r.substeps).2 with
    | some c => c
    | none =>
      match (stages r.detach).2 with
      | some c => c
      | none =>
        match allOutput r with
        | .returns 0 () => .returns r.forces ()
        | c => c

/-- A point when the system is initialised: whether it is free, its height and the
seabed's height below it. -/
structure PointStart where
  free : Bool
  z : ℚ
  seabed : ℚ

/-- `Point::initialize`, source/Point.cpp:138-170. -/
def PointStart.initialize (p : PointStart) : Except Exc Unit :=
  if p.free ∧ p.z < p.seabed then .error .value else .ok ()

/-- The work of `MoorDyn_Init`, as far as it can fail. -/
structure InitRun where
  /-- `updateFairlead` of the coupled points -/
  coupledPoints : List (Except Exc Unit)
  /-- the points of the system -/
  points : List PointStart
  /-- `initialize` of the lines -/
  lines : List (Except Exc Unit)
  /-- the steps of the initial condition search (none with `MoorDyn_Init_NoIC`) -/
  relax : List (Except Exc Unit)
  /-- the second setup of the waves -/
  waves : Except Exc Unit
  /-- whether the main output file could be opened -/
  fileOpen : Bool
  /-- the code of the first `AllOutput` -/
  firstRow : ℤ

/-- A sequence without handlers. -/
def bareSeq : List (Except Exc Unit) → Except Exc Unit
  | [] => .ok ()
  | s :: ss => do s; bareSeq ss

/-- `TimeSchemeBase::Init` (points and lines), source/Time.hpp:532-562: called without a
handler at source/MoorDyn2.cpp:195 (dynamic relaxation), 354 (stationary solver) and 537
(`MoorDyn_Init_NoIC`). -/
def schemeInit (r : InitRun) : Except Exc Unit := do
  bareSeq (r.points.map PointStart.initialize)
  bareSeq r.lines

/-- `MoorDyn_Init` and `MoorDyn_Init_NoIC`, source/MoorDyn2.cpp:405-604 and 2401-2412:
with the coupled points, the integrator's `Init`, the search of the initial conditions,
the waves, the main output file and the first row.  Simplified: the initialisation of
bodies and rods is left out. -/
def init (r : InitRun) : Call Unit :=
  match (stages r.coupledPoints).2 with
  | some c => c
  | none =>
    match schemeInit r with
    | .error e => .escapes e
    | .ok () =>
      match (stages r.relax).2 with
      | some c => c
      | none =>
        match (stages [r.waves]).2 with
        | some c => c
        | none => if r.fileOpen then .returns r.firstRow () else .returns (-2) ()

/-- `MoorDyn_SetLogFile`, source/MoorDyn2.cpp:2369-2374, with `MultiStream::SetFile`,
source/Log.cpp:91-100: `opens` tells whether the file can be opened. -/
def setLogFile {S : Type} (h : Option S) (opens : Bool) : Call Unit :=
  checked h () fun _ => bare (if opens then .ok (some ()) else .error .outputFile)

/-! ## Objects and nodes -/

/-- `MoorDyn_GetBody`, `MoorDyn_GetRod`, `MoorDyn_GetPoint`, `MoorDyn_GetLine`,
source/MoorDyn2.cpp:2528-2605: the handle (`none`: null) of object `i` of a system with
the given list of objects of that kind; the inner `none` stands for an access out of
bounds. -/
def getObject {O : Type} (objs : Option (List O)) (i : ℕ) : Option (Option O) :=
  match objs with
  | none => some none
  | some l =>
    if i = 0 ∨ l.length < i then some none
    else (l[i - 1]?).map some

/-- `MoorDyn_GetPointAttached`, source/Point.cpp:558-574: `attached` are the attachments
of the point, `out` the output arguments. -/
def pointAttached {A : Type} (h : Option (List A)) (i : ℕ) (out : A) : Call A :=
  checked h out fun attached =>
    if attached.length ≤ i then .returns (-6) out
    else match attached[i]? with
      | some a => .returns 0 a
      | none => .undefined

/-- The values at the nodes of a line that can be queried: `N` segments, so `N + 1`
nodes; the tension and damping have an entry per segment.  `V` is the type of vectors. -/
structure LineMem (V : Type) where
  N : ℕ
  /-- one of the arrays with an entry per node: r, rd, Fnet, Bs, W, Dp + Dq, ... -/
  nodal : List V
  /-- T and Td -/
  T : List V
  Td : List V

/-- `getNodePos`, `getNodeVel` (with the check for NaN) and `getNodeForce`,
`getNodeBendStiff`, `getNodeWeight`, `getNodeDrag`, `getNodeFroudeKrilov`,
`getNodeSeabedForce`, `getNodeCurv`, `getNodeM` (without it: `isNan` is false),
source/Line.hpp:441-508 and 545-655; `getNodePos` and `getNodeVel` of rods,
source/Rod.hpp:362-395. -/
def nodeValue {V : Type} (isNan : V → Bool) (l : LineMem V) (i : ℕ) :
    Except Exc (Option V) :=
  if l.N < i then .error .value
  else match l.nodal[i]? with
    | none => .ok none
    | some v => if isNan v then .error .nan else .ok (some v)

/-- `getNodeTen`, source/Line.hpp:520-535. -/
def nodeTen {V : Type} [Add V] (half : V → V) (l : LineMem V) (i : ℕ) :
    Except Exc (Option V) :=
  if l.N < i then .error .value
  else if i = 0 then .ok (do return (← l.T[0]?) + (← l.Td[0]?))
  else if i = l.N then .ok (do return (← l.T[l.N - 1]?) + (← l.Td[l.N - 1]?))
  else .ok (do
    return half ((← l.T[i]?) + (← l.T[i - 1]?) + (← l.Td[i]?) + (← l.Td[i - 1]?)))

/-- `MoorDyn_GetLineNodePos` and its siblings, source/Line.cpp:1673-1824, and
`MoorDyn_GetRodNodePos`, `MoorDyn_GetRodNodeVel`, source/Rod.cpp:1642-1667. -/
def getNode {V : Type} (isNan : V → Bool) (h : Option (LineMem V)) (i : ℕ) (out : V) :
    Call V :=
  checked h out fun l => guarded out (nodeValue isNan l i)

/-- `MoorDyn_GetLineNodeTen`, source/Line.cpp:1715-1726. -/
def getNodeTen {V : Type} [Add V] (half : V → V) (h : Option (LineMem V)) (i : ℕ)
    (out : V) : Call V :=
  checked h out fun l => guarded out (nodeTen half l i)

/-- The arrays made by `Line::setup`, source/Line.cpp:180-215, and `Rod::setup`: `N + 1`
entries per node array, `N` per segment array. -/
def LineMem.Sized {V : Type} (l : LineMem V) : Prop :=
  l.nodal.length = l.N + 1 ∧ l.T.length = l.N ∧ l.Td.length = l.N

/-! ## Tensions for FAST -/

/-- `(unsigned int)(*numLines)` for a 32-bit int. -/
def toUnsigned (n : ℤ) : ℕ := (n % 4294967296).toNat

/-- Writing `a[i] = v` in the caller's array: undefined beyond its end. -/
def write {F : Type} (a : List F) (i : ℕ) (v : F) : Option (List F) :=
  if i < a.length then some (a.set i v) else none

/-- The four arrays of the caller. -/
structure FastArrays (F : Type) where
  fairH : List F
  fairV : List F
  anchH : List F
  anchV : List F
deriving DecidableEq, Repr

/-- One pass of the loop of `MoorDyn_GetFASTtens`, source/MoorDyn2.cpp:2624-2626:
`tens` are the four values of `getFASTtens`, source/Line.hpp:667-676. -/
def fastLine {F L : Type} (tens : L → F × F × F × F) (lines : List L) (i : ℕ)
    (b : FastArrays F) : Option (FastArrays F) := do
  let l ← lines[i]?
  let (fh, fv, ah, av) := tens l
  return { fairH := ← write b.fairH i fh, fairV := ← write b.fairV i fv,
           anchH := ← write b.anchH i ah, anchV := ← write b.anchV i av }

/-- The loop `for (int l = 0; l < *numLines; l++)`, source/MoorDyn2.cpp:2624-2626. -/
def fastLoop {F L : Type} (tens : L → F × F × F × F) (lines : List L) :
    ℕ → ℕ → FastArrays F → Option (FastArrays F)
  | _, 0, b => some b
  | i, n + 1, b => do
    let b ← fastLine tens lines i b
    fastLoop tens lines (i + 1) n b

/-- `MoorDyn_GetFASTtens`, source/MoorDyn2.cpp:2608-2629. -/
def getFASTtens {F L : Type} (tens : L → F × F × F × F) (h : Option (List L))
    (numLines : ℤ) (b : FastArrays F) : Call (FastArrays F) :=
  checked h b fun lines =>
    if lines.length < toUnsigned numLines then .returns (-6) b
    else match fastLoop tens lines 0 numLines.toNat b with
      | some b' => .returns 0 b'
      | none => .undefined

/-! ## The legacy interface -/

/-- The global state of the legacy interface: the instance in use
(`md_singleton`, source/MoorDyn.cpp:76-78), the instances that exist, and the next
unused instance. -/
structure Legacy where
  singleton : Option ℕ
  alive : List ℕ
  next : ℕ
deriving DecidableEq, Repr

/-- Before the first call. -/
def Legacy.start : Legacy := ⟨none, [], 0⟩

/-- A call of the legacy interface with what the library answers: `init created code`:
whether the system could be created, and the code of its initialisation; `step code`: the
code of the step. -/
inductive Op
  | init (created : Bool) (code : ℤ)
  | step (code : ℤ)
  | close
deriving DecidableEq, Repr

/-- `MoorDyn_Close`: destroys the instance. -/
def Legacy.delete (s : Legacy) (i : ℕ) : Legacy := { s with alive := s.alive.erase i }

/-- `MoorDynInit` 85-159, `MoorDynStep` 163-174, `MoorDynClose` 177-199 of
source/MoorDyn.cpp: the code returned and the new state. -/
def Legacy.call (s : Legacy) : Op → ℤ × Legacy
  | .init created code =>
    if created then
      let i := s.next
      let s := { s with alive := i :: s.alive, next := i + 1 }
      if code ≠ 0 then (code, s)
      else
        let s := match s.singleton with
          | some old => s.delete old
          | none => s
        (0, { s with singleton := some i })
    else (-255, s)
  | .step code =>
    match s.singleton with
    | none => (-6, s)
    | some _ => (code, s)
  | .close =>
    match s.singleton with
    | none => (-6, s)
    | some i => (0, { s.delete i with singleton := none })

/-- A sequence of calls: the codes returned and the final state. -/
def Legacy.run (s : Legacy) : List Op → List ℤ × Legacy
  | [] => ([], s)
  | op :: ops =>
    let (c, s) := s.call op
    let (cs, s) := s.run ops
    (c :: cs, s)

/-- `GetFairTen`, source/MoorDyn.cpp:234-243: the value returned; `none`: the
uninitialised variable `t`.  `lines` are the fairlead tensions of the lines of the
instance in use. -/
def legacyFairTen (lines : Option (List ℚ)) (l : ℤ) : Option ℚ :=
  match lines with
  | none => some (-1)
  | some ts =>
    match getObject (some ts) (toUnsigned l) with
    | some (some t) => some t
    | _ => none

end MD.Api
