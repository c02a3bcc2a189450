import Verif.Model.Body
import Verif.Model.Time
import Mathlib.Algebra.BigOperators.Group.Finset.Basic

/-!
# Model of a system of lines and points as the integrators see it

Lines between points, each point being fixed, coupled or free: `TimeSchemeBase::Update` and
`TimeSchemeBase::CalcStateDeriv` (source/Time.cpp:39-150) on such a system.  Rods, bodies, lines
whose unstretched length is being changed, and the skipping of objects by the local time steps
(`_calc_mask`) are left out.  The forces are those of `Verif.Model.Line` and `Verif.Model.Body`.
-/

namespace MD.Moored

open Matrix MD.Mat MD.Mooring MD.Bodies

/-- `Point::types`, source/Point.hpp:156-167. -/
inductive Kind | FIXED | COUPLED | FREE
  deriving DecidableEq

/-- What does not change during a simulation.  `sea` has the constants (source/Misc.hpp:1047-1079) and the
depths; the water at a place and a time is `kin`: elevation, velocity, acceleration, dynamic pressure,
as `Waves::updateWaves` (source/Waves.cpp) stores it for each node.  `att` is the list `attached` of each point
(source/Point.hpp:84-101). -/
structure System where
  nl : ℕ
  np : ℕ
  kind : ℕ → Kind
  att : ℕ → List (ℕ × EndPt)
  sea : Env
  kin : ℝ → V → ℝ × V × V × ℝ

/-- What changes: the time, the lines, the points, and what was given to `Point::initiateStep`
(source/Point.cpp:205-221).  `bad` is set when a force is not a number, `edge` when an end of a segment is exactly
as high as the water over the segment; `spans` and `bends` collect the lengths and the curvatures that `EqualRealNos`
has compared with zero (source/Misc.hpp:788-797, source/Line.cpp:843-859, 934-1022, 1073-1093).  The code has none of
these four, they only record what has happened. -/
structure Mem where
  t : ℝ
  line : ℕ → Line
  point : ℕ → Point
  ves : ℕ → V × V
  bad : Prop
  edge : Prop
  spans : Set ℝ := ∅
  bends : Set ℝ := ∅

/-- The state: positions and velocities of the inner nodes of each line (node `j + 1` at `j`) and of
each point, source/State.hpp. -/
abbrev State := (ℕ → ℕ → V × V) × (ℕ → V × V)

variable (S : System)

/-- `Line::setEndKinematics`, source/Line.cpp:683-704. -/
def setEnd (x xd : V) (p : EndPt) (L : Line) : Line :=
  match p with
  | .TOP => { L with endTypeB := .PINNED, r := Function.update L.r L.N x, rd := Function.update L.rd L.N xd }
  | .BOTTOM => { L with endTypeA := .PINNED, r := Function.update L.r 0 x, rd := Function.update L.rd 0 xd }

/-- The loop over the attached lines in `updateFairlead`, `setKinematics` and `setState`,
source/Point.cpp:236-238, 254-256, 274-276. -/
def pass (x xd : V) (l : List (ℕ × EndPt)) (line : ℕ → Line) : ℕ → Line :=
  l.foldl (fun line a => Function.update line a.1 (setEnd x xd a.2 (line a.1))) line

/-- A point gets a position and a velocity, and passes them on. -/
def move (i : ℕ) (x xd : V) (m : Mem) : Mem :=
  { m with
    point := Function.update m.point i { m.point i with r := x, rd := xd }
    line := pass x xd (S.att i) m.line }

/-- `Point::updateFairlead`, source/Point.cpp:223-239, for coupled points only (source/Time.cpp:55-59). -/
def fairlead (tl : ℝ) (m : Mem) (i : ℕ) : Mem :=
  if S.kind i = .COUPLED then move S i ((m.ves i).1 + tl • (m.ves i).2) (m.ves i).2 m else m

/-- `Point::setState`, source/Point.cpp:259-277, for free points only (source/Time.cpp:79-83). -/
def freeState (e : State) (m : Mem) (i : ℕ) : Mem :=
  if S.kind i = .FREE then move S i (e.2 i).1 (e.2 i).2 m else m

/-- `Line::setState`, source/Line.cpp:663-681. -/
def lineState (e : ℕ → V × V) (L : Line) : Line :=
  { L with
    r := fun j => if 1 ≤ j ∧ j < L.N then (e (j - 1)).1 else L.r j
    rd := fun j => if 1 ≤ j ∧ j < L.N then (e (j - 1)).2 else L.rd j }

/-- `TimeSchemeBase::Update`, source/Time.cpp:39-89. -/
def update (t tl : ℝ) (e : State) (m : Mem) : Mem :=
  let m := (List.range S.np).foldl (fairlead S tl) m
  let m := (List.range S.np).foldl (freeState S e) m
  { m with t := t, line := fun i => if i < S.nl then lineState (e.1 i) (m.line i) else m.line i }

/-- The water at the nodes of a line, `Waves::getWaveKinLine` after `Waves::updateWaves`
(source/Line.cpp:864, source/Time.cpp:94). -/
def envOf (t : ℝ) (r : ℕ → V) : Env :=
  { S.sea with
    zeta := fun j => (S.kin t (r j)).1
    U := fun j => (S.kin t (r j)).2.1
    Ud := fun j => (S.kin t (r j)).2.2.1
    pdyn := fun j => (S.kin t (r j)).2.2.2 }

/-- The environment of a line. -/
def lineEnv (m : Mem) (i : ℕ) : Env := envOf S m.t (m.line i).r

/-- `Line::getStateDeriv`, source/Line.cpp:1230-1262: velocity and acceleration `M⁻¹ Fnet` of an inner node.
`Matrix` inverses are total; for a singular `M` the code gives infinities. -/
noncomputable def nodeRate (m : Mem) (i j : ℕ) : Option (V × V) :=
  (Fnet (m.line i) (lineEnv S m i) j).map fun f =>
    ((m.line i).rd j, (M (m.line i) (lineEnv S m i) j)⁻¹ *ᵥ f)

/-- The point with the water velocity and what its lines give, source/Point.cpp:330-365. -/
noncomputable def loaded (m : Mem) (i : ℕ) : Option Point :=
  ((S.att i).mapM fun a => getEndStuff (m.line a.1) (lineEnv S m a.1) a.2).map fun l =>
    { m.point i with U := (S.kin m.t (m.point i).r).2.1, attached := l }

/-- `Point::getStateDeriv`, source/Point.cpp:279-299. -/
noncomputable def pointRate (m : Mem) (i : ℕ) : Option (V × V) :=
  (loaded S m i).map fun p =>
    (p.rd, (p.doRHS S.sea.rho_w S.sea.g).2⁻¹ *ᵥ (p.doRHS S.sea.rho_w S.sea.g).1)

/-- The force of a point, source/Point.cpp:320-383 `Fnet`: what `MoorDyn_Step` gives back for a coupled point
(source/Time.cpp:131-135, source/MoorDyn2.hpp:524-529, source/Point.hpp:279). -/
noncomputable def reported (m : Mem) (i : ℕ) : Option V :=
  (loaded S m i).map fun p => (p.doRHS S.sea.rho_w S.sea.g).1

/-- Whether a rate is asked for. -/
def asked (m : Mem) : ℕ ⊕ (ℕ × ℕ) → Prop
  | .inl i => i < S.np ∧ S.kind i = .FREE
  | .inr (i, j) => i < S.nl ∧ 1 ≤ j ∧ j < (m.line i).N

/-- An end of a segment is as high as the water over the segment (source/Line.cpp:618-620, 868-875). -/
def atEdge (m : Mem) : Prop :=
  ∃ i j, i < S.nl ∧ j < (m.line i).N ∧
    ((m.line i).r j 2 = 1 / 2 * ((lineEnv S m i).zeta j + (lineEnv S m i).zeta (j + 1)) ∨
      (m.line i).r (j + 1) 2 = 1 / 2 * ((lineEnv S m i).zeta j + (lineEnv S m i).zeta (j + 1)))

/-- The lengths compared with zero: of the segments (source/Line.cpp:797-806) and between the neighbours of inner nodes
(source/Line.cpp:807-823). -/
def spansOf (m : Mem) : Set ℝ :=
  { x | ∃ i j, i < S.nl ∧ (j < (m.line i).N ∧ x = lstr (m.line i) j ∨
    1 ≤ j ∧ j < (m.line i).N ∧ x = (unitvector ((m.line i).r (j - 1)) ((m.line i).r (j + 1))).2) }

/-- The curvatures compared with zero. -/
def bendsOf (m : Mem) : Set ℝ := { x | ∃ i j, i < S.nl ∧ j ≤ (m.line i).N ∧ x = Kurv (m.line i) j }

open Classical in
/-- `TimeSchemeBase::CalcStateDeriv`, source/Time.cpp:91-150: first the lines, then the free points.  The forces
on coupled points (lines 131-135) change no state. -/
noncomputable def eval (m : Mem) : State × Mem :=
  ((fun i j => if asked S m (.inr (i, j + 1)) then (nodeRate S m i (j + 1)).getD 0 else 0,
    fun i => if asked S m (.inl i) then (pointRate S m i).getD 0 else 0),
   { m with
     bad := m.bad ∨ (∃ i j, asked S m (.inr (i, j)) ∧ nodeRate S m i j = none) ∨
       ∃ i, asked S m (.inl i) ∧ pointRate S m i = none
     edge := m.edge ∨ atEdge S m
     spans := m.spans ∪ spansOf S m
     bends := m.bends ∪ bendsOf S m })

/-- The system as the integrators see it. -/
noncomputable def machine : Time.Machine ℝ State Mem := ⟨update S, eval S, id⟩

/-- `Point::initiateStep` for each coupled point, called from source/MoorDyn2.cpp:682-688 with the positions and
velocities given to `MoorDyn_Step`. -/
def initiate (x : ℕ → V × V) (m : Mem) : Mem :=
  { m with ves := fun i => if S.kind i = .COUPLED then x i else m.ves i }

/-! ## When Anderson's iteration ends -/

/-- The number of accelerations, source/Time.hpp:1336-1341 `ndof`; `n i` segments have `n i - 1` inner nodes. -/
def ndof (n : ℕ → ℕ) : ℕ := 3 * S.np + ∑ i ∈ Finset.range S.nl, 3 * (n i - 1)

/-- Sum of the absolute values of the components. -/
def absSum (x : V) : ℝ := |x 0| + |x 1| + |x 2|

/-- The sum of the absolute values of the residues, source/Time.hpp:1348-1373 `fill`: of the accelerations of all
inner nodes and all points.  A pair has `rd[org]` and `rd[dst]`. -/
def residues (n : ℕ → ℕ) (g : State × State) : ℝ :=
  ∑ i ∈ Finset.range S.nl, ∑ j ∈ Finset.range (n i - 1), absSum ((g.2.1 i j).2 - (g.1.1 i j).2) +
    ∑ i ∈ Finset.range S.np, absSum ((g.2.2 i).2 - (g.1.2 i).2)

open Classical in
/-- source/Time.hpp:1286-1290 `converged`, with the first residue `_g0`.  In the code the mean of nothing and 0/0 are
not numbers, and not below anything. -/
noncomputable def converged (n : ℕ → ℕ) (tol rel : ℝ) (g0 g : State × State) : Bool :=
  let mean := fun g => residues S n g / ndof S n
  decide (ndof S n ≠ 0 ∧ (mean g < tol ∨ mean g0 ≠ 0 ∧ mean g / mean g0 < rel))

end MD.Moored
