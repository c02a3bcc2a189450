import Verif.Model.RodType

/-!
# Model of zero-length rods, the clamps and joints of power cables

`Line::setEndOrientation`, `Line::getEndSegmentMoment` (source/Line.cpp) and the part of
`Rod::setDependentStates`, `Rod::setState` and `Rod::setKinematics` (source/Rod.cpp) for a rod of
no segments.

The positions of the lines are those at the time of the call. `Update` (source/Time.cpp:67-89)
sets the state of the rods before that of the lines, so that in a running simulation the first
node away from the rod is one evaluation older than its end: that delay is not modelled.
-/

namespace MD.Rods.Zero

open MD.Mat MD.Mooring MD.Rods Matrix

/-- `Line::setEndOrientation`, source/Line.cpp:704-729: what a line keeps of the axis `qin` of the rod
to whose end `rodEnd` (`TOP` is B, source/Misc.hpp:520-525) its end `p` is attached. -/
def setEndOrientation (L : Line) (qin : V) (p rodEnd : EndPt) : Line :=
  match p with
  | .TOP =>
    { L with endTypeB := .CANTILEVERED, qB := if rodEnd = .TOP then -qin else qin }
  | .BOTTOM =>
    { L with endTypeA := .CANTILEVERED, qA := if rodEnd = .BOTTOM then -qin else qin }

/-- The bending stiffness read by `getEndSegmentMoment`, source/Line.cpp:743 and 755, with the
curvature `K` kept from the last evaluation. `none`: division by zero. -/
noncomputable def endEI (L : Line) (K : ℝ) : Option ℝ :=
  match L.bstiff with
  | none => some L.EI
  | some f => if K = 0 then none else some (f K / K)

/-- `Line::getEndSegmentMoment`, source/Line.cpp:731-771; `K` is the curvature of the end kept from
the last evaluation. `none`: division by zero. -/
noncomputable def endSegmentMoment (L : Line) (K : ℝ) (p rodEnd : EndPt) : Option V := do
  let EI ← endEI L K
  match p with
  | .TOP =>
    let u := unitvector (L.r (L.N - 1)) (L.r L.N)
    let EIEnd := if rodEnd = .BOTTOM then EI else -EI
    if u.2 = 0 then none else some ((EIEnd / u.2) • u.1)
  | .BOTTOM =>
    let u := unitvector (L.r 0) (L.r 1)
    let EIEnd := if rodEnd = .BOTTOM then -EI else EI
    if u.2 = 0 then none else some ((EIEnd / u.2) • u.1)

/-- A line attached to an end of a rod: the line, the curvature it keeps for that end, and which
of its ends it is (`attachment`, source/Rod.hpp:362-370). -/
abbrev Attached := Line × ℝ × EndPt

/-- The sum of source/Rod.cpp:581-587. -/
noncomputable def momentSum (rodEnd : EndPt) : List Attached → Option V
  | [] => some 0
  | x :: xs => do
    let a ← endSegmentMoment x.1 x.2.1 x.2.2 rodEnd
    let b ← momentSum rodEnd xs
    some (a + b)

/-- `Rod::setDependentStates` for a rod of no segments, source/Rod.cpp:571-601: the axis passed to the
lines attached to its ends. -/
noncomputable def jointAxis (As Bs : List Attached) : Option V := do
  let a ← momentSum .BOTTOM As
  let b ← momentSum .TOP Bs
  some (Mooring.normalize (a + b))

/-- `q0` of `Rod::setup`, source/Rod.cpp:126-141. -/
noncomputable def q0 (NumSegs : ℕ) (A B : V) : V :=
  if NumSegs = 0 then 0 else (unitvector A B).1

/-- The axis of the rod itself at the end of `Rod::setState` and `Rod::setKinematics`,
source/Rod.cpp:453-456 and 537-541; `OrMat` is the rotation matrix of its quaternion. -/
noncomputable def ownAxis (OrMat : M3 ℝ) (NumSegs : ℕ) (A B : V) : V := OrMat *ᵥ q0 NumSegs A B

/-- A rod of `NumSegs` segments once its state has been set. -/
noncomputable def ready (p : RodType.RodProps ℝ) (NumSegs : ℕ) (A B : V) (OrMat : M3 ℝ) (R : Rod) :
    Rod :=
  { RodType.mkRod p NumSegs A B R with q := ownAxis OrMat NumSegs A B }

/-- A coupled rod of no segments keeps the axis passed to its lines (`updateFairlead`,
source/Rod.cpp:485-496 does not change it afterwards). -/
noncomputable def readyCoupled (p : RodType.RodProps ℝ) (A B axis : V) (R : Rod) : Rod :=
  { RodType.mkRod p 0 A B R with q := axis }

end MD.Rods.Zero
