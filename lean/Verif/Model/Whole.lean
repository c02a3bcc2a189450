import Verif.Model.Body
import Verif.Model.Time
import Verif.Model.Moored

/-!
# Model of the whole: bodies, rods, points and lines, and what they tell each other

`TimeSchemeBase::Update` and `CalcStateDeriv` (source/Time.cpp) with the functions they call: how places and velocities
go from bodies to rods and points and from these to the ends of lines, and how forces come back.  The formulas of the
forces are not in this model: they are arbitrary functions of what the code gives them (they are modelled in
`Verif.Model.Line`, `Rod`, `Body`).  Left out are the changes of the unstretched lengths (source/Time.cpp:60-62,
`Verif.Model.Motion`), the masks of the local time steps, exceptions, and accelerations that are stored only to be shown.
-/

namespace MD.Whole

open MD.Mooring Matrix
open MD.Moored (Kind)

/-- `Body::types`, source/Body.hpp:103-116. -/
inductive BKind | FREE | COUPLED | CPLDPIN | FIXED
  deriving DecidableEq

/-- `Rod::types`, source/Rod.hpp:240-256. -/
inductive RKind | FREE | PINNED | COUPLED | CPLDPIN | FIXED
  deriving DecidableEq

/-- `ENDPOINT_A`, `ENDPOINT_B` of a rod, source/Util/CFL.hpp and source/Misc.hpp. -/
inductive REnd | A | B
  deriving DecidableEq

/-- What the other objects and the state write in a `Line`: `r`, `rd`, `endTypeA`, `endTypeB`, `q[0]` and `q[N]`
(source/Line.hpp:120-200). -/
structure Shape where
  r : ℕ → V
  rd : ℕ → V
  endA : EndType
  endB : EndType
  qA : V
  qB : V

/-- A line, with all that its last evaluation has left, `F`. -/
structure Line (FL : Type) where
  s : Shape
  F : FL

/-- A point: `r`, `rd`, `r_ves` and `rd_ves` (source/Point.hpp:120-160), and what its last evaluation has left. -/
structure Point (FP : Type) where
  r : V
  rd : V
  ves : V × V
  F : FP

/-- A rod: `r7`, `v6`, `q`, the nodes `r` and `rd`, `acc6`, `r_ves`, `rd_ves`, `rdd_ves` (source/Rod.hpp:110-200), and what its
last evaluation has left.  `acc6` is modelled as far as `updateFairlead` writes it, and where `getStateDeriv` of a pinned
rod clears it. -/
structure Rod (Q FR : Type) where
  pos : V
  quat : Q
  vel : V
  w : V
  q : V
  r : ℕ → V
  rd : ℕ → V
  acc : V × V
  ves : (V × V) × (V × V) × (V × V)
  F : FR

/-- A body: `r7`, `v6`, `OrMat`, `a6`, `r_ves`, `rd_ves`, `rdd_ves` (source/Body.hpp:110-200), and what its last evaluation has
left.  `a6` is modelled as far as `updateFairlead` writes it. -/
structure Body (Q FB : Type) where
  pos : V
  quat : Q
  vel : V
  w : V
  orMat : Matrix (Fin 3) (Fin 3) ℝ
  acc : V × V
  ves : (V × V) × (V × V) × (V × V)
  F : FB

/-- All the objects; the ground is a body of its own. -/
structure Mem (Q FL FP FR FB : Type) where
  t : ℝ
  line : ℕ → Line FL
  point : ℕ → Point FP
  rod : ℕ → Rod Q FR
  body : ℕ → Body Q FB
  ground : Body Q FB

/-- What does not change: how many objects there are, of which kind, what is attached to what, and the laws of the forces.

* `pts b`, `rods b`: `attachedP` with `rPointRel` and `attachedR` with `r6RodRel` of a body (`none`: of the ground),
  source/Body.hpp:95-101;
* `ends i`: `attached` of a point, source/Point.hpp:80-90; `endsA i`, `endsB i`: `attachedA` and `attachedB` of a rod;
* `mat`: `normalized().toRotationMatrix()`, `pose`: `XYZQuat::fromVec6`, `between`: `FromTwoVectors`, `one`: `Identity`;
* `sea`: what `Waves::updateWaves` writes for a place at a time, source/Waves.cpp:751-880;
* `moment`: `Line::getEndSegmentMoment`, source/Line.cpp:728-769, `unit`: `normalized`;
* `lineF`: `Line::getStateDeriv`: the accelerations of the inner nodes and what is left in the line;
* `pointF`: `Point::doRHS` from place, velocity, water and lines; `pointA`: the acceleration;
* `rodF`: `Rod::doRHS`; `rodA` the accelerations of a free rod, `pinA` that of a pinned one, `quatA` the rate of the quaternion;
* `bodyF`: `Body::doRHS` from the body, the water and what its points and rods give; `bodyA`, `bodyPinA`: accelerations. -/
structure System (Q FL FP FR FB Wt : Type) where
  nb : ℕ
  nr : ℕ
  np : ℕ
  nl : ℕ
  bkind : ℕ → BKind
  rkind : ℕ → RKind
  pkind : ℕ → Kind
  pts : Option ℕ → List (ℕ × V)
  rods : Option ℕ → List (ℕ × V × V)
  ends : ℕ → List (ℕ × EndPt)
  endsA : ℕ → List (ℕ × EndPt)
  endsB : ℕ → List (ℕ × EndPt)
  rodN : ℕ → ℕ
  rodLen : ℕ → ℝ
  q0 : ℕ → V
  lineN : ℕ → ℕ
  mat : Q → Matrix (Fin 3) (Fin 3) ℝ
  pose : V × V → V × Q
  between : V → V → Q
  one : Q
  sea : ℝ → V → Wt
  moment : ℕ → Shape → FL → EndPt → REnd → V
  unit : V → V
  lineF : ℕ → Shape → (ℕ → Wt) → (ℕ → V) × FL
  pointF : ℕ → V → V → Wt → List (FL × EndPt) → FP
  pointA : FP → V
  rodF : ℕ → Q → V → V → (ℕ → V) → (ℕ → V) → (ℕ → Wt) → List (FL × EndPt) → List (FL × EndPt) → FR
  rodA : FR → V × V
  pinA : FR → V → V
  quatA : V → Q → Q
  bodyF : ℕ → V → Q → V → V → Matrix (Fin 3) (Fin 3) ℝ → Wt → List (V × FP) → List (V × V × FR) → FB
  bodyA : FB → V × V
  bodyPinA : FB → V → V

variable {Q FL FP FR FB Wt : Type} (S : System Q FL FP FR FB Wt)

/-! ## Places and velocities -/

/-- `Line::setEndKinematics`, source/Line.cpp:683-704. -/
def giveEnd (N : ℕ) (x xd : V) (p : EndPt) (L : Line FL) : Line FL :=
  match p with
  | .TOP => { L with s := { L.s with endB := .PINNED, r := Function.update L.s.r N x, rd := Function.update L.s.rd N xd } }
  | .BOTTOM => { L with s := { L.s with endA := .PINNED, r := Function.update L.s.r 0 x, rd := Function.update L.s.rd 0 xd } }

/-- `Line::setEndOrientation`, source/Line.cpp:706-730. -/
def giveDir (q : V) (p : EndPt) (e : REnd) (L : Line FL) : Line FL :=
  match p with
  | .TOP => { L with s := { L.s with endB := .CANTILEVERED, qB := if e = .B then -q else q } }
  | .BOTTOM => { L with s := { L.s with endA := .CANTILEVERED, qA := if e = .A then -q else q } }

/-- The loops over attached lines that pass places and velocities on, source/Point.cpp:236-238, 255-257, 274-276 and
source/Rod.cpp:567-570. -/
def passEnds (x xd : V) (l : List (ℕ × EndPt)) (f : ℕ → Line FL) : ℕ → Line FL :=
  l.foldl (fun f a => Function.update f a.1 (giveEnd (S.lineN a.1) x xd a.2 (f a.1))) f

/-- The loops over attached lines that pass the axis of a rod on, source/Rod.cpp:598-601. -/
def passDirs (q : V) (e : REnd) (l : List (ℕ × EndPt)) (f : ℕ → Line FL) : ℕ → Line FL :=
  l.foldl (fun f a => Function.update f a.1 (giveDir q a.2 e (f a.1))) f

/-- `Point::setState`, `Point::setKinematics` and the last lines of `Point::updateFairlead`, source/Point.cpp:223-277. -/
def movePoint (i : ℕ) (x xd : V) (m : Mem Q FL FP FR FB) : Mem Q FL FP FR FB :=
  { m with
    point := Function.update m.point i { m.point i with r := x, rd := xd }
    line := passEnds S x xd (S.ends i) m.line }

/-- The sum of the moments of the lines at a rod without length, source/Rod.cpp:574-590. -/
def momentSum (i : ℕ) (line : ℕ → Line FL) : V :=
  ((S.endsA i).map fun a => S.moment a.1 (line a.1).s (line a.1).F a.2 .A).sum +
    ((S.endsB i).map fun a => S.moment a.1 (line a.1).s (line a.1).F a.2 .B).sum

/-- `Rod::setDependentStates`, the ends of the rod, source/Rod.cpp:549-563. -/
def rodEnds (i : ℕ) (R : Rod Q FR) : Rod Q FR :=
  let r := Function.update R.r 0 R.pos
  let rd := Function.update R.rd 0 R.vel
  if 0 < S.rodN i then
    let q := S.mat R.quat *ᵥ S.q0 i
    { R with
      q := q
      r := Function.update r (S.rodN i) (R.pos + S.rodLen i • q)
      rd := Function.update rd (S.rodN i) (R.vel + R.w ⨯₃ (S.rodLen i • q)) }
  else { R with r := r, rd := rd }

/-- `Rod::setDependentStates`, source/Rod.cpp:543-602. -/
def passRod (i : ℕ) (m : Mem Q FL FP FR FB) : Mem Q FL FP FR FB :=
  let R := rodEnds S i (m.rod i)
  let line := passEnds S (R.r 0) (R.rd 0) (S.endsA i) m.line
  let line := passEnds S (R.r (S.rodN i)) (R.rd (S.rodN i)) (S.endsB i) line
  let R := if 0 < S.rodN i then R else { R with q := S.unit (momentSum S i line) }
  let line := passDirs R.q .A (S.endsA i) line
  let line := passDirs R.q .B (S.endsB i) line
  { m with rod := Function.update m.rod i R, line := line }

/-- Changes of the fields of one rod. -/
def setRod (i : ℕ) (f : Rod Q FR → Rod Q FR) (m : Mem Q FL FP FR FB) : Mem Q FL FP FR FB :=
  { m with rod := Function.update m.rod i (f (m.rod i)) }

/-- `Rod::setKinematics` of a rod fixed or pinned to a body, source/Rod.cpp:511-541: end A is at `x` with velocity `v`, the
axis is `dir`, the angular velocity `w`. -/
def rodKin (i : ℕ) (x v dir w : V) (m : Mem Q FL FP FR FB) : Mem Q FL FP FR FB :=
  let m := if S.rkind i = .FIXED then
      passRod S i (setRod i (fun R => { R with pos := x, quat := S.between (S.q0 i) dir, vel := v, w := w }) m)
    else setRod i (fun R => { R with pos := x, vel := v }) m
  setRod i (fun R => { R with q := S.mat R.quat *ᵥ S.q0 i }) m

/-- `Body::setDependentStates`, source/Body.cpp:252-318, of body `b` (`none`: of the ground) with the kinematics of `B`. -/
def passBody (b : Option ℕ) (B : Body Q FB) (m : Mem Q FL FP FR FB) : Mem Q FL FP FR FB :=
  let m := (S.pts b).foldl (fun m a =>
    let k := Mat.transformKinematics a.2 B.orMat B.pos B.vel B.w
    movePoint S a.1 k.1 k.2 m) m
  (S.rods b).foldl (fun m a =>
    let k := Mat.transformKinematics a.2.1 B.orMat B.pos B.vel B.w
    rodKin S a.1 k.1 k.2 (B.orMat *ᵥ a.2.2) B.w m) m

/-- `Body::updateFairlead` of a coupled body or of the ground, source/Body.cpp:421-439: the fields of the body. -/
def bodyFair (tl : ℝ) (B : Body Q FB) : Body Q FB :=
  let p := S.pose (B.ves.1 + tl • B.ves.2.1)
  { B with pos := p.1, quat := p.2, vel := B.ves.2.1.1, w := B.ves.2.1.2, acc := B.ves.2.2, orMat := S.mat p.2 }

/-- `Body::updateFairlead` in the loop over the bodies, source/Time.cpp:45-49 and source/Body.cpp:421-449. -/
def fairBody (tl : ℝ) (m : Mem Q FL FP FR FB) (b : ℕ) : Mem Q FL FP FR FB :=
  match S.bkind b with
  | .COUPLED =>
    let B := bodyFair S tl (m.body b)
    passBody S (some b) B { m with body := Function.update m.body b B }
  | .CPLDPIN =>
    let B := m.body b
    let B := { B with pos := B.ves.1.1 + tl • B.ves.2.1.1, vel := B.ves.2.1.1, acc := (B.ves.2.2.1, B.acc.2) }
    { m with body := Function.update m.body b B }
  | _ => m

/-- `Rod::updateFairlead` in the loop over the rods, source/Time.cpp:50-54 and source/Rod.cpp:481-509. -/
def fairRod (tl : ℝ) (m : Mem Q FL FP FR FB) (i : ℕ) : Mem Q FL FP FR FB :=
  match S.rkind i with
  | .COUPLED => passRod S i (setRod i (fun R =>
      { R with
        pos := (S.pose (R.ves.1 + tl • R.ves.2.1)).1
        quat := (S.pose (R.ves.1 + tl • R.ves.2.1)).2
        vel := R.ves.2.1.1
        w := R.ves.2.1.2
        acc := R.ves.2.2 }) m)
  | .CPLDPIN => setRod i (fun R =>
      { R with pos := R.ves.1.1 + tl • R.ves.2.1.1, vel := R.ves.2.1.1, acc := (R.ves.2.2.1, R.acc.2) }) m
  | _ => m

/-- `Point::updateFairlead` in the loop over the points, source/Time.cpp:55-59 and source/Point.cpp:223-239. -/
def fairPoint (tl : ℝ) (m : Mem Q FL FP FR FB) (i : ℕ) : Mem Q FL FP FR FB :=
  if S.pkind i = .COUPLED then movePoint S i ((m.point i).ves.1 + tl • (m.point i).ves.2) (m.point i).ves.2 m else m

/-- The state: of the inner nodes of each line (node `j + 1` at `j`), of points, rods and bodies, source/State.hpp. -/
abbrev State (Q : Type) := (ℕ → ℕ → V × V) × (ℕ → V × V) × (ℕ → (V × Q) × (V × V)) × (ℕ → (V × Q) × (V × V))

/-- `Body::setState` in the loop over the bodies, source/Time.cpp:64-68 and source/Body.cpp:451-473. -/
def stateBody (e : ℕ → (V × Q) × (V × V)) (m : Mem Q FL FP FR FB) (b : ℕ) : Mem Q FL FP FR FB :=
  match S.bkind b with
  | .FREE =>
    let B := { m.body b with pos := (e b).1.1, quat := (e b).1.2, vel := (e b).2.1, w := (e b).2.2, orMat := S.mat (e b).1.2 }
    passBody S (some b) B { m with body := Function.update m.body b B }
  | .CPLDPIN =>
    let B := { m.body b with quat := (e b).1.2, w := (e b).2.2, orMat := S.mat (e b).1.2 }
    passBody S (some b) B { m with body := Function.update m.body b B }
  | _ => m

/-- The last lines of `Rod::setState`, source/Rod.cpp:444-455. -/
def settle (i : ℕ) (R : Rod Q FR) : Rod Q FR :=
  let R := if 0 < S.rodN i then R else { R with quat := S.one, w := 0 }
  { R with q := S.mat R.quat *ᵥ S.q0 i }

/-- `Rod::setState` in the loop over the rods, source/Time.cpp:70-76 and source/Rod.cpp:428-456. -/
def stateRod (e : ℕ → (V × Q) × (V × V)) (m : Mem Q FL FP FR FB) (i : ℕ) : Mem Q FL FP FR FB :=
  match S.rkind i with
  | .FREE => setRod i (settle S i) (passRod S i (setRod i (fun R =>
      { R with pos := (e i).1.1, quat := (e i).1.2, vel := (e i).2.1, w := (e i).2.2 }) m))
  | .PINNED | .CPLDPIN => setRod i (settle S i) (passRod S i (setRod i (fun R =>
      { R with quat := (e i).1.2, w := (e i).2.2 }) m))
  | _ => m

/-- `Point::setState` in the loop over the points, source/Time.cpp:78-82. -/
def statePoint (e : ℕ → V × V) (m : Mem Q FL FP FR FB) (i : ℕ) : Mem Q FL FP FR FB :=
  if S.pkind i = .FREE then movePoint S i (e i).1 (e i).2 m else m

/-- `Line::setState`, source/Line.cpp:658-681. -/
def stateLine (N : ℕ) (e : ℕ → V × V) (L : Line FL) : Line FL :=
  { L with
    s := { L.s with
           r := fun j => if 1 ≤ j ∧ j < N then (e (j - 1)).1 else L.s.r j
           rd := fun j => if 1 ≤ j ∧ j < N then (e (j - 1)).2 else L.s.rd j } }

/-- `Line::setTime` and `Line::setState` in the loop over the lines, source/Time.cpp:84-87. -/
def stateLines (e : ℕ → ℕ → V × V) (m : Mem Q FL FP FR FB) : Mem Q FL FP FR FB :=
  { m with line := fun k => if k < S.nl then stateLine (S.lineN k) (e k) (m.line k) else m.line k }

/-- `TimeSchemeBase::Update`, source/Time.cpp:39-89.  The ground is given the time itself, which does not matter as its
velocity is zero (source/Body.cpp:408-415). -/
def update (t tl : ℝ) (e : State Q) (m : Mem Q FL FP FR FB) : Mem Q FL FP FR FB :=
  let G := bodyFair S t m.ground
  let m := passBody S none G { m with ground := G, t := t }
  let m := (List.range S.nb).foldl (fairBody S tl) m
  let m := (List.range S.nr).foldl (fairRod S tl) m
  let m := (List.range S.np).foldl (fairPoint S tl) m
  let m := (List.range S.nb).foldl (stateBody S e.2.2.2) m
  let m := (List.range S.nr).foldl (stateRod S e.2.2.1) m
  let m := (List.range S.np).foldl (statePoint S e.2.1) m
  stateLines S e.1 m

/-! ## Forces -/

/-- What lines give, `Line::getEndStuff` (source/Line.hpp:600-640), in the order of the list. -/
def given (line : ℕ → Line FL) (l : List (ℕ × EndPt)) : List (FL × EndPt) := l.map fun a => ((line a.1).F, a.2)

/-- `Point::doRHS`, source/Point.cpp:320-383. -/
def rhsPoint (i : ℕ) (m : Mem Q FL FP FR FB) : Mem Q FL FP FR FB :=
  let P := m.point i
  let P := { P with F := S.pointF i P.r P.rd (S.sea m.t P.r) (given m.line (S.ends i)) }
  { m with point := Function.update m.point i P }

/-- The inner nodes of a rod, which are stretched between its ends when the forces are computed, source/Rod.cpp:886-894. -/
noncomputable def straight (N : ℕ) (x : ℕ → V) (j : ℕ) : V :=
  if 1 ≤ j ∧ j < N then x 0 + ((j : ℝ) / N) • (x N - x 0) else x j

/-- `Rod::doRHS`, source/Rod.cpp:866-1303, with the water `wt` that `updateWaves` has found before, at the places where the nodes
were then (source/Time.cpp:95, source/Waves.cpp:715-726). -/
noncomputable def rhsRod (wt : ℕ → ℕ → Wt) (i : ℕ) (m : Mem Q FL FP FR FB) : Mem Q FL FP FR FB :=
  let R := m.rod i
  let r := straight (S.rodN i) R.r
  let rd := straight (S.rodN i) R.rd
  let F := S.rodF i R.quat R.w R.q r rd (wt i) (given m.line (S.endsA i)) (given m.line (S.endsB i))
  let R := { R with r := r, rd := rd, F := F }
  { m with rod := Function.update m.rod i R }

/-- `Body::doRHS`, source/Body.cpp:537-632: points and rods of the body are evaluated, one after the other. -/
noncomputable def rhsBody (wt : ℕ → ℕ → Wt) (b : ℕ) (m : Mem Q FL FP FR FB) : Mem Q FL FP FR FB :=
  let m := (S.pts (some b)).foldl (fun m a => rhsPoint S a.1 m) m
  let m := (S.rods (some b)).foldl (fun m a => rhsRod S wt a.1 m) m
  let B := m.body b
  let F := S.bodyF b B.pos B.quat B.vel B.w B.orMat (S.sea m.t B.pos)
    ((S.pts (some b)).map fun a => ((m.point a.1).r, (m.point a.1).F))
    ((S.rods (some b)).map fun a => ((m.rod a.1).pos, (m.rod a.1).vel, (m.rod a.1).F))
  let B := { B with F := F }
  { m with body := Function.update m.body b B }

/-- The water at the nodes of the rods, source/Waves.cpp:715-726. -/
def rodWater (m : Mem Q FL FP FR FB) (i j : ℕ) : Wt := S.sea m.t ((m.rod i).r j)

/-- `Line::getStateDeriv` of all lines, source/Time.cpp:97-102. -/
def evalLines (m : Mem Q FL FP FR FB) : Mem Q FL FP FR FB :=
  { m with line := fun k => if k < S.nl then
      { m.line k with F := (S.lineF k (m.line k).s fun j => S.sea m.t ((m.line k).s.r j)).2 } else m.line k }

/-- `Point::getStateDeriv` in the loop, source/Time.cpp:104-111. -/
def evalPoint (m : Mem Q FL FP FR FB) (i : ℕ) : Mem Q FL FP FR FB :=
  if S.pkind i = .FREE then rhsPoint S i m else m

/-- `Rod::getStateDeriv` in the loop, source/Time.cpp:113-121; a pinned rod forgets the acceleration of its end A
(source/Rod.cpp:677). -/
noncomputable def evalRod (wt : ℕ → ℕ → Wt) (m : Mem Q FL FP FR FB) (i : ℕ) : Mem Q FL FP FR FB :=
  match S.rkind i with
  | .FREE => rhsRod S wt i m
  | .PINNED | .CPLDPIN => setRod i (fun R => { R with acc := (0, R.acc.2) }) (rhsRod S wt i m)
  | _ => m

/-- `Body::getStateDeriv` in the loop, source/Time.cpp:123-130. -/
noncomputable def evalBody (wt : ℕ → ℕ → Wt) (m : Mem Q FL FP FR FB) (b : ℕ) : Mem Q FL FP FR FB :=
  if S.bkind b = .FREE ∨ S.bkind b = .CPLDPIN then rhsBody S wt b m else m

/-- `Point::doRHS` of the coupled points, source/Time.cpp:132-136. -/
def askPoint (m : Mem Q FL FP FR FB) (i : ℕ) : Mem Q FL FP FR FB :=
  if S.pkind i = .COUPLED then rhsPoint S i m else m

/-- `Rod::doRHS` of the coupled rods, source/Time.cpp:137-141. -/
noncomputable def askRod (wt : ℕ → ℕ → Wt) (m : Mem Q FL FP FR FB) (i : ℕ) : Mem Q FL FP FR FB :=
  if S.rkind i = .COUPLED then rhsRod S wt i m else m

/-- `Body::doRHS` of the coupled bodies, source/Time.cpp:142-146. -/
noncomputable def askBody (wt : ℕ → ℕ → Wt) (m : Mem Q FL FP FR FB) (b : ℕ) : Mem Q FL FP FR FB :=
  if S.bkind b = .COUPLED then rhsBody S wt b m else m

/-- What `CalcStateDeriv` does to the objects, source/Time.cpp:91-150. -/
noncomputable def evaluate (m : Mem Q FL FP FR FB) : Mem Q FL FP FR FB :=
  let wt := rodWater S m
  let m := evalLines S m
  let m := (List.range S.np).foldl (evalPoint S) m
  let m := (List.range S.nr).foldl (evalRod S wt) m
  let m := (List.range S.nb).foldl (evalBody S wt) m
  let m := (List.range S.np).foldl (askPoint S) m
  let m := (List.range S.nr).foldl (askRod S wt) m
  let m := (List.range S.nb).foldl (askBody S wt) m
  passBody S none m.ground m

/-- The rates of change that `CalcStateDeriv` writes: of lines, points, rods and bodies, in terms of what the evaluation has left.
`old` is the memory before: the acceleration of end A of a pinned rod is read before it is cleared. -/
noncomputable def rates [Zero Q] (old m : Mem Q FL FP FR FB) : State Q :=
  (fun k j => if k < S.nl ∧ j + 1 < S.lineN k then
      ((old.line k).s.rd (j + 1), (S.lineF k (old.line k).s fun j => S.sea old.t ((old.line k).s.r j)).1 (j + 1)) else 0,
    fun i => if i < S.np ∧ S.pkind i = .FREE then ((m.point i).rd, S.pointA (m.point i).F) else 0,
    fun i => if i < S.nr then
        match S.rkind i with
        | .FREE => (((m.rod i).vel, S.quatA (m.rod i).w (m.rod i).quat), S.rodA (m.rod i).F)
        | .PINNED | .CPLDPIN => ((0, S.quatA (m.rod i).w (m.rod i).quat), (0, S.pinA (m.rod i).F (old.rod i).acc.1))
        | _ => 0
      else 0,
    fun b => if b < S.nb then
        match S.bkind b with
        | .FREE => (((m.body b).vel, S.quatA (m.body b).w (m.body b).quat), S.bodyA (m.body b).F)
        | .CPLDPIN => ((0, S.quatA (m.body b).w (m.body b).quat), ((m.body b).acc.1, S.bodyPinA (m.body b).F (m.body b).acc.1))
        | _ => 0
      else 0)

/-- The objects as the integrators see them. -/
noncomputable def machine [Zero Q] : Time.Machine ℝ (State Q) (Mem Q FL FP FR FB) :=
  ⟨update S, fun m => (rates S m (evaluate S m), evaluate S m), id⟩

/-! ## Calls -/

/-- What `MoorDyn_Step` is given for the coupled objects: place and velocity of bodies and rods (six components each) and of
points, and the time step. -/
structure Asked where
  body : ℕ → (V × V) × (V × V)
  rod : ℕ → (V × V) × (V × V)
  point : ℕ → V × V
  dt : ℝ

/-- source/MoorDyn2.cpp:638-650 and 662-670 with `initiateStep` (source/Body.cpp:391-399, source/Rod.cpp:461-466): the acceleration is
the difference to the velocity given before (`getUnfreeVel`, source/Body.hpp:261, source/Rod.hpp:490). -/
noncomputable def newVes (dt : ℝ) (x : (V × V) × (V × V)) (old : (V × V) × (V × V) × (V × V)) : (V × V) × (V × V) × (V × V) :=
  (x.1, x.2, (1 / dt) • (x.2 - old.2.1))

/-- The same for pinned objects, whose first three components are taken, source/MoorDyn2.cpp:650-661 and 670-680,
source/Body.cpp:400-406, source/Rod.cpp:471-475. -/
noncomputable def newHeads (dt : ℝ) (x : (V × V) × (V × V)) (old : (V × V) × (V × V) × (V × V)) : (V × V) × (V × V) × (V × V) :=
  ((x.1.1, old.1.2), (x.2.1, old.2.1.2), ((1 / dt) • (x.2.1 - old.2.1.1), old.2.2.2))

/-- `Rod::initiateStep` in the loop over the rods, source/MoorDyn2.cpp:662-684 and source/Rod.cpp:458-479. -/
noncomputable def initRod (dt : ℝ) (x : ℕ → (V × V) × (V × V)) (m : Mem Q FL FP FR FB) (i : ℕ) : Mem Q FL FP FR FB :=
  match S.rkind i with
  | .COUPLED => passRod S i (setRod i (fun R => { R with ves := newVes dt (x i) R.ves }) m)
  | .CPLDPIN => setRod i (fun R => { R with ves := newHeads dt (x i) R.ves }) m
  | _ => m

/-- `Body::initiateStep` in the loop over the bodies, source/MoorDyn2.cpp:638-661 and source/Body.cpp:388-419. -/
noncomputable def initBody (dt : ℝ) (x : ℕ → (V × V) × (V × V)) (m : Mem Q FL FP FR FB) (b : ℕ) : Mem Q FL FP FR FB :=
  let B := m.body b
  match S.bkind b with
  | .COUPLED =>
    let B := { B with ves := newVes dt (x b) B.ves }
    { m with body := Function.update m.body b B }
  | .CPLDPIN =>
    let B := { B with ves := newHeads dt (x b) B.ves }
    { m with body := Function.update m.body b B }
  | _ => m

/-- `Point::initiateStep` in the loop over the points, source/MoorDyn2.cpp:685-691 and source/Point.cpp:205-221. -/
def initPoint (x : ℕ → V × V) (m : Mem Q FL FP FR FB) (i : ℕ) : Mem Q FL FP FR FB :=
  let P := m.point i
  let P := { P with ves := x i }
  if S.pkind i = .COUPLED then { m with point := Function.update m.point i P } else m

/-- The beginning of `MoorDyn::Step`, source/MoorDyn2.cpp:634-691. -/
noncomputable def initiate (x : Asked) (m : Mem Q FL FP FR FB) : Mem Q FL FP FR FB :=
  let m := (List.range S.nb).foldl (initBody S x.dt x.body) m
  let m := (List.range S.nr).foldl (initRod S x.dt x.rod) m
  (List.range S.np).foldl (initPoint S x.point) m

/-- One call of `MoorDyn_Step`, source/MoorDyn2.cpp:612-760: nothing happens if the time step is not positive (621-627); `none` where the
loop over the internal steps does not end within `fuel` steps. -/
noncomputable def call [AddCommGroup Q] [Module ℝ Q] (ax : Time.Aux ℝ (State Q)) (sc : Time.Scheme ℝ) (dtM0 : ℝ) (fuel : ℕ)
    (s : Time.Sim ℝ (State Q) (Mem Q FL FP FR FB)) (x : Asked) : Option (Time.Sim ℝ (State Q) (Mem Q FL FP FR FB)) :=
  if x.dt ≤ 0 then some s
  else match Time.outerStep (ε := Empty) dtM0 (Time.next (machine S)) (fun h s => .ok (Time.stepOf (machine S) ax sc h s)) fuel x.dt
      { s with m := initiate S x s.m } with
    | some (.ok e, _) => some e
    | _ => none

/-- `Body::initializeUnfreeBody` of the bodies of the kind FIXED, which have been given the places `x`, in the loop of `MoorDyn::Init`,
source/MoorDyn2.cpp:424-426, source/Body.cpp:168-190, 408-415 and 421-439. -/
def fixBody (x : ℕ → V × V) (m : Mem Q FL FP FR FB) (b : ℕ) : Mem Q FL FP FR FB :=
  let B := m.body b
  let B := { B with ves := (x b, 0, 0) }
  let B := bodyFair S 0 B
  if S.bkind b = .FIXED then passBody S (some b) B { m with body := Function.update m.body b B } else m

/-- The loop of `MoorDyn::Init` over the bodies of the kind FIXED, source/MoorDyn2.cpp:424-426. -/
def fixBodies (x : ℕ → V × V) (m : Mem Q FL FP FR FB) : Mem Q FL FP FR FB := (List.range S.nb).foldl (fixBody S x) m

/-- `MoorDyn_Load` of what `MoorDyn_Save` wrote of `m` into the memory `m'`: `Deserialize` of the objects, source/Line.cpp:1423-1451,
source/Point.cpp:406-418, source/Rod.cpp:1474-1507, source/Body.cpp:680-693, source/MoorDyn2.cpp:780-805.  Not stored are how the ends of
lines are held, the accelerations and `rdd_ves`, and the ground.  The results of the evaluation are modelled as stored: what of them
is not stored is written in every evaluation before it is read.  There are no lines from `nl` on. -/
def load (m m' : Mem Q FL FP FR FB) : Mem Q FL FP FR FB :=
  { t := m.t
    line := fun k =>
      let L := (m'.line k).s
      let L := { (m.line k).s with endA := L.endA, endB := L.endB }
      if k < S.nl then ⟨L, (m.line k).F⟩ else m.line k
    point := m.point
    rod := fun i =>
      let R := m.rod i
      { R with acc := (m'.rod i).acc, ves := (R.ves.1, R.ves.2.1, (m'.rod i).ves.2.2) }
    body := fun b =>
      let B := m.body b
      { B with acc := (m'.body b).acc, ves := (B.ves.1, B.ves.2.1, (m'.body b).ves.2.2) }
    ground := m'.ground }

end MD.Whole
