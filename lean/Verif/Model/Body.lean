import Verif.Model.Rod

/-!
# Model of points and bodies (`source/Point.cpp`, `source/Body.cpp`)

Over the reals: forces and masses of `Point::doRHS` and `Body::doRHS`, the kinematics that a body
imposes on its points and rods and the equations solved for the accelerations.

Not modelled: the solution of the linear systems (`M.inverse()`, `solveMat6`), described by the
equation they solve, and rounding. `waves->getWaveKinPoint` and `getWaveKinBody` are given by the
water velocity `U`, the only quantity used.
-/

namespace MD.Bodies

open Matrix MD.Mat MD.Rot MD.Mooring MD.Rods

/-! ## Points -/

/-- The fields of a `Point` read by `doRHS` (source/Point.hpp:120-200) -/
structure Point where
  pointM : ℝ
  pointV : ℝ
  pointF : V
  pointCdA : ℝ
  pointCa : ℝ
  r : V
  rd : V
  /-- water velocity at the point, `U[0]` -/
  U : V
  /-- what `getEndStuff` of the attached line ends returns: force, moment, mass, in the order of
  the list `attached` -/
  attached : List (V × V × M3 ℝ)

/-- source/Point.cpp:330-356: the loop over the attached lines; the moments are not used -/
noncomputable def pointLoop : List (V × V × M3 ℝ) → V × M3 ℝ → V × M3 ℝ
  | [], acc => acc
  | a :: rest, acc => pointLoop rest (acc.1 + a.1, acc.2 + a.2.2)

/-- source/Point.cpp:320-383 `doRHS`: `Fnet` and `M` -/
noncomputable def Point.doRHS (p : Point) (rho_w g : ℝ) : V × M3 ℝ :=
  let Fnet := p.pointF + ![0, 0, g * (p.pointV * rho_w - p.pointM)]
  let M : M3 ℝ := p.pointM • (1 : M3 ℝ)
  let FM := pointLoop p.attached (Fnet, M)
  let vi := p.U - p.rd
  let dir := normalized vi
  (FM.1 + (1 / 2 * rho_w * (vi ⬝ᵥ vi) * p.pointCdA) • dir,
    FM.2 + (p.pointV * rho_w * p.pointCa) • (1 : M3 ℝ))

/-- source/Point.cpp:279-299 `getStateDeriv`: the acceleration of a free point solves `M a = Fnet` -/
def Point.acc (p : Point) (rho_w g : ℝ) (a : V) : Prop :=
  (p.doRHS rho_w g).2 *ᵥ a = (p.doRHS rho_w g).1

/-- source/Point.cpp:301-318 `getNetForceAndMass` about `rBody`, with angular velocity `w` (source/Point.hpp:431-434
`getCentripetalForce`): force, moment and mass -/
noncomputable def Point.getNetForceAndMass (p : Point) (rho_w g : ℝ) (rBody w : V) :
    V × V × M6 ℝ :=
  let FM := p.doRHS rho_w g
  let rRel := p.r - rBody
  (FM.1 + -(FM.2 *ᵥ (w ⨯₃ (w ⨯₃ rRel))), rRel ⨯₃ FM.1, translateMass rRel FM.2)

/-! ## Bodies -/

/-- The fields of a `Body` (source/Body.hpp:90-200). `OrMat` and `v6` (`v`, `w`) are the orientation
matrix and the velocities. -/
structure Body where
  bodyM : ℝ
  bodyV : ℝ
  body_rCG : V
  bodyI : V
  /-- `bodyCdA`: linear and angular part -/
  CdA : V
  CdAr : V
  /-- `bodyCa`: linear and angular part -/
  Ca : V
  Car : V
  pos : V
  OrMat : M3 ℝ
  v : V
  w : V
  /-- water velocity, `U[0]` -/
  U : V

/-- source/Body.cpp:111-120: mass matrix in body axes -/
noncomputable def Body.M0 (b : Body) (rho_w : ℝ) : M6 ℝ :=
  translateMass6 b.body_rCG (fromBlocks (b.bodyM • 1) 0 0 (diagonal b.bodyI))
    + fromBlocks ((b.bodyV * rho_w) • diagonal b.Ca) 0 0 ((b.bodyV * rho_w) • diagonal b.Car)

/-- source/Body.cpp:549-551: own mass matrix in global axes -/
noncomputable def Body.ownM (b : Body) (rho_w : ℝ) : M6 ℝ := rotateMass6 b.OrMat (b.M0 rho_w)

/-- source/Body.cpp:555-557: weight and buoyancy -/
noncomputable def Body.Fgrav (b : Body) (rho_w g : ℝ) : V :=
  ![0, 0, b.bodyV * rho_w * g - b.bodyM * g]

/-- source/Body.cpp:553-554 -/
noncomputable def Body.rCG (b : Body) : V := b.OrMat *ᵥ b.body_rCG

/-- source/Body.cpp:575-588: drag, force -/
noncomputable def Body.drag (b : Body) (rho_w : ℝ) : V :=
  let vi := b.U - b.v
  (1 / 2 * rho_w * Mooring.norm vi) • ((b.OrMat * diagonal b.CdA * b.OrMatᵀ) *ᵥ vi)

/-- source/Body.cpp:575-588: drag, moment (the rotation of the flow is not considered) -/
noncomputable def Body.dragMoment (b : Body) (rho_w : ℝ) : V :=
  (1 / 2 * rho_w * Mooring.norm (-b.w)) • ((b.OrMat * diagonal b.CdAr * b.OrMatᵀ) *ᵥ (-b.w))

/-- source/Body.cpp:556-588: force and moment on the body itself: weight, buoyancy, the term of the
centre of gravity not being the reference point, drag -/
noncomputable def Body.ownF (b : Body) (rho_w g : ℝ) : V × V :=
  (b.Fgrav rho_w g - (b.ownM rho_w).toBlocks₁₁ *ᵥ (b.w ⨯₃ (b.w ⨯₃ b.rCG)) + b.drag rho_w,
    b.rCG ⨯₃ b.Fgrav rho_w g + b.dragMoment rho_w)

/-- source/Body.cpp:590-629: adds what the attached points and rods return -/
noncomputable def addAll : List (V × V × M6 ℝ) → V × V × M6 ℝ → V × V × M6 ℝ
  | [], acc => acc
  | a :: rest, acc => addAll rest (acc.1 + a.1, acc.2.1 + a.2.1, acc.2.2 + a.2.2)

/-- source/Body.cpp:537-632 `doRHS`: `F6net` (force and moment) and `M`. Points and rods carry the
kinematics they have been given before (`setDependentStates`). `none`: a rod throws. -/
noncomputable def Body.doRHS (b : Body) (e : Env) (points : List Point) (rods : List Rod) :
    Option (V × V × M6 ℝ) :=
  let own := b.ownF e.rho_w e.g
  let acc := addAll (points.map fun p => p.getNetForceAndMass e.rho_w e.g b.pos b.w)
    (own.1, own.2, b.ownM e.rho_w)
  (rods.mapM fun R => getNetForceAndMass R e b.pos b.w).map fun l => addAll l acc

/-- source/Body.cpp:475-495 `getStateDeriv` of a free body: accelerations solve `M a = F6net` -/
def Body.freeAcc (b : Body) (e : Env) (points : List Point) (rods : List Rod) (a al : V) : Prop :=
  ∃ F Mo M, b.doRHS e points rods = some (F, Mo, M) ∧ M *ᵥ Sum.elim a al = Sum.elim F Mo

/-- source/Body.cpp:495-510 `getStateDeriv` of a coupled pinned body: angular acceleration `al`, given the
acceleration `a` of the pin -/
def Body.pinnedAcc (b : Body) (e : Env) (points : List Point) (rods : List Rod) (a al : V) : Prop :=
  ∃ F Mo M, b.doRHS e points rods = some (F, Mo, M) ∧
    M.toBlocks₂₂ *ᵥ al = Mo - M.toBlocks₂₁ *ᵥ a

/-- source/Body.cpp:513-535 `getFnet` of a coupled body: what is returned to the caller, given the
accelerations -/
noncomputable def coupledFnet (FMM : V × V × M6 ℝ) (a al : V) : V × V :=
  (FMM.1 - (FMM.2.2.toBlocks₁₁ *ᵥ a + FMM.2.2.toBlocks₁₂ *ᵥ al),
    FMM.2.1 - (FMM.2.2.toBlocks₂₁ *ᵥ a + FMM.2.2.toBlocks₂₂ *ᵥ al))

/-- source/Body.cpp:513-535 `getFnet` of a coupled pinned body -/
noncomputable def pinnedFnet (FMM : V × V × M6 ℝ) (a al : V) : V × V :=
  (FMM.1 + (-(FMM.2.2.toBlocks₁₁ *ᵥ a) - FMM.2.2.toBlocks₁₂ *ᵥ al), 0)

/-! ## Kinematics of the attachments -/

/-- source/Body.cpp:252-280 `setDependentStates`, points: position and velocity given to a point stored
with the relative position `rel` (Point::setKinematics, source/Point.cpp:232-251) -/
def Body.setPoint (b : Body) (rel : V) (p : Point) : Point :=
  let k := transformKinematics rel b.OrMat b.pos b.v b.w
  { p with r := k.1, rd := k.2 }

/-- source/Body.cpp:282-320 `setDependentStates`, rods, and source/Rod.cpp:511-542 `setKinematics` of a rod fixed
to a body: `rel` and `dir` are position of end A and axis relative to the body (source/Body.cpp:149-166
`addRod`), `q0` the axis of the rod at the start. `none`: the direction is opposite to `q0`. -/
noncomputable def Body.setRod (b : Body) (rel dir q0 : V) (R : Rod) : Option Rod :=
  let k := transformKinematics rel b.OrMat b.pos b.v b.w
  (fromTwoVectors q0 (b.OrMat *ᵥ dir)).map fun quat =>
    { R with r0 := k.1, q := orMat quat *ᵥ q0, vA := k.2, w := b.w }

/-- source/Body.cpp:282-320 and source/Rod.cpp:511-542 of a rod pinned to a body: only end A is moved -/
def Body.setPinnedRod (b : Body) (rel : V) (R : Rod) : Rod :=
  let k := transformKinematics rel b.OrMat b.pos b.v b.w
  { R with r0 := k.1, vA := k.2 }

/-- source/Rod.cpp:604-686 `getStateDeriv` of a rod pinned to a body: angular acceleration. The
acceleration of end A is set to zero there (source/Rod.cpp:677), initially (source/Rod.cpp:148), and nowhere
else for this type. -/
def pinnedRodAcc (R : Rod) (e : Env) (al : V) : Prop :=
  ∃ F Mo M6, getNetForceAndMass R e (Rods.r R 0) 0 = some (F, Mo, M6) ∧
    M6.toBlocks₂₂ *ᵥ al = Mo

end MD.Bodies
