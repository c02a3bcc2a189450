import Verif.Model.Matrix
import Mathlib.Analysis.Real.Sqrt

/-!
# Model of the forces on a line (`source/Line.cpp`, `source/Line.hpp`)

The force computation `Line::getStateDeriv` (source/Line.cpp:772-1264), function by function, over the
reals. Arrays are functions of the index; the fields that the function writes (tangents, stretched
lengths, forces) are definitions depending on the positions and velocities. The number of
segments is `N`, nodes go from `0` to `N`.

Not modelled here: the check for NaN positions (source/Line.cpp:782-792), the inversion of the mass
matrices of the internal nodes (source/Line.cpp:1258), and rounding. A division by zero, NaN in the
code, is `none` where it can happen for a line of positive segment lengths (`getNonlinearC`).
-/

namespace MD.Mooring

open Matrix MD.Mat

/-- `vec` -/
abbrev V := V3 ℝ

/-- Eigen `norm` -/
noncomputable def norm (v : V) : ℝ := Real.sqrt (v ⬝ᵥ v)

/-- `std::numeric_limits<double>::epsilon()` -/
noncomputable def eps : ℝ := 1 / 2 ^ 52

/-- source/Misc.hpp:161-169 `EqualRealNos` -/
def EqualRealNos (a1 a2 : ℝ) : Prop :=
  |a1 - a2| ≤ max |a1 + a2| 1 * (100 * eps / 2)

open Classical in
/-- source/Misc.hpp:788-797 `unitvector`: direction and length -/
noncomputable def unitvector (r1 r2 : V) : V × ℝ :=
  let u := r2 - r1
  let l := norm u
  (if EqualRealNos l 0 then u else (1 / l) • u, l)

open Classical in
/-- source/Misc.hpp:805-817 `scalevector` -/
noncomputable def scalevector (u : V) (newlength : ℝ) : V :=
  let l2 := u ⬝ᵥ u
  if EqualRealNos l2 0 then u else (newlength / Real.sqrt l2) • u

/-- Eigen `normalize`: divided by the norm if it is not null -/
noncomputable def normalize (u : V) : V :=
  if 0 < u ⬝ᵥ u then (1 / norm u) • u else u

/-- source/Misc.cpp:331-359 `GetCurvature` -/
noncomputable def getCurvature (length : ℝ) (q1 q2 : V) : ℝ :=
  if q1 ⬝ᵥ q2 + eps > 1 then 0
  else 4 / length * Real.sqrt (1 / 2 * (1 - q1 ⬝ᵥ q2))

/-- `Line::endTypes`, Line.hpp -/
inductive EndType | PINNED | CANTILEVERED
  deriving DecidableEq

/-- Environment and sea state as seen by a line: constants of `EnvCond` (source/Misc.hpp:1047-1079), the
depth of the seabed (`getWaterDepth`, negative numbers) and the wave kinematics at the nodes
(`waves->getWaveKinLine`, source/Line.cpp:864). -/
structure Env where
  rho_w : ℝ
  g : ℝ
  kb : ℝ
  cb : ℝ
  frictionCoefficient : ℝ
  fricDamp : ℝ
  statDynFricScale : ℝ
  waterDepth : ℝ → ℝ → ℝ
  zeta : ℕ → ℝ
  U : ℕ → V
  Ud : ℕ → V
  pdyn : ℕ → ℝ

/-- The fields of a `Line` read by `getStateDeriv` (source/Line.hpp:160-300). The tabulated curves
(`nEApoints > 0` and so on) are `some f`, `f` being what `interp` gives for the table
(property C21). -/
structure Line where
  N : ℕ
  d : ℝ
  A : ℝ
  rho : ℝ
  E : ℝ
  c : ℝ
  EI : ℝ
  Can : ℝ
  Cat : ℝ
  Cdn : ℝ
  Cdt : ℝ
  stiff : Option (ℝ → ℝ)
  bstiff : Option (ℝ → ℝ)
  damp : Option (ℝ → ℝ)
  /-- whether the damping table starts with a negative rate, `dampXs[0] < 0` -/
  dampNeg : Bool
  l : ℕ → ℝ
  V : ℕ → ℝ
  r : ℕ → V3 ℝ
  rd : ℕ → V3 ℝ
  endTypeA : EndType
  endTypeB : EndType
  /-- `q[0]` and `q[N]` as set by `setEndOrientation` -/
  qA : V3 ℝ
  qB : V3 ℝ
  pin : ℕ → ℝ
  isPb : Bool

variable (L : Line) (e : Env)

/-! ## Kinematic quantities -/

/-- source/Line.cpp:797-806: segment tangent -/
noncomputable def qs (i : ℕ) : V := (unitvector (L.r i) (L.r (i + 1))).1

/-- source/Line.cpp:800 stretched length -/
noncomputable def lstr (i : ℕ) : ℝ := (unitvector (L.r i) (L.r (i + 1))).2

/-- source/Line.cpp:802 strain rate -/
noncomputable def ldstr (i : ℕ) : ℝ := qs L i ⬝ᵥ (L.rd (i + 1) - L.rd i)

/-- source/Line.cpp:819 -/
def isEI : Prop := 0 < L.EI ∨ L.bstiff.isSome

open Classical in
/-- source/Line.cpp:807-823: node tangents -/
noncomputable def q (i : ℕ) : V :=
  if i = 0 then
    if L.endTypeA = .PINNED ∨ ¬ isEI L then (unitvector (L.r 0) (L.r 1)).1 else L.qA
  else if i = L.N then
    if L.endTypeB = .PINNED ∨ ¬ isEI L then (unitvector (L.r (L.N - 1)) (L.r L.N)).1 else L.qB
  else (unitvector (L.r (i - 1)) (L.r (i + 1))).1

open Classical in
/-- source/Line.cpp:825-842: curvatures -/
noncomputable def Kurv (i : ℕ) : ℝ :=
  if isEI L ∨ L.isPb then
    if i = 0 then
      if L.endTypeA = .CANTILEVERED then getCurvature (lstr L 0) (q L 0) (qs L 0) else 0
    else if i = L.N then
      if L.endTypeB = .CANTILEVERED then getCurvature (lstr L (i - 1)) (qs L (i - 1)) (q L i) else 0
    else getCurvature (lstr L (i - 1) + lstr L i) (qs L (i - 1)) (qs L i)
  else 0

open Classical in
/-- source/Line.cpp:843-859: normals -/
noncomputable def pvec (i : ℕ) : V :=
  if EqualRealNos (Kurv L i) 0 then 0
  else
    let p :=
      if i = 0 then q L 0 ⨯₃ qs L 0
      else if i = L.N then qs L (i - 1) ⨯₃ q L L.N
      else qs L (i - 1) ⨯₃ qs L i
    if EqualRealNos (norm p) 0 then p else (1 / norm p) • p

/-- source/Line.cpp:613-656 `calcSubSeg` for the node positions `a` (first) and `b` (second) and line
diameter `d` -/
noncomputable def calcSubSeg (d : ℝ) (a b : V) (surface_height : ℝ) : ℝ :=
  let firstNodeZ := a 2 - surface_height
  let secondNodeZ := b 2 - surface_height
  if firstNodeZ ≤ 0 ∧ secondNodeZ < 0 then 1
  else if 0 < firstNodeZ ∧ 0 < secondNodeZ then 0
  else if firstNodeZ = -secondNodeZ then 1 / 2
  else
    let lower := if firstNodeZ < 0 then a else b
    let upper := if firstNodeZ < 0 then b else a
    let lowerEnd : V := lower - ![0, 0, surface_height]
    let upperEnd : V := upper - ![0, 0, surface_height]
    let segmentAxis := upperEnd - lowerEnd
    let upVec : V := ![0, 0, 1]
    let normVec := normalize (segmentAxis ⨯₃ (upVec ⨯₃ segmentAxis))
    let normVec := scalevector normVec (d / 2)
    let lowerEnd := lowerEnd - normVec
    let upperEnd := upperEnd + normVec
    |lowerEnd 2| / (|lowerEnd 2| + upperEnd 2)

/-- source/Line.cpp:866-876: submerged fraction of the segments -/
noncomputable def F (i : ℕ) : ℝ :=
  calcSubSeg L.d (L.r i) (L.r (i + 1)) (1 / 2 * (e.zeta i + e.zeta (i + 1)))

/-! ## Node quantities

The code writes for each quantity three branches, first node (segment 0), last node (segment
`N - 1`) and internal nodes (both adjacent segments). -/

/-- The sum of a segment quantity over the segments adjacent to the node: the three branches at
source/Line.cpp:884-893, 1098-1108, 1123-1141, 1150-1165 and 1171-1182 -/
def adjacent (N : ℕ) (f : ℕ → ℝ) (i : ℕ) : ℝ :=
  if i = 0 then f i else if i = N then f (i - 1) else f i + f (i - 1)

/-- source/Line.cpp:884-893: node mass -/
noncomputable def m (i : ℕ) : ℝ :=
  Real.pi / 8 * (L.d * L.d * L.rho * adjacent L.N L.l i)

/-- source/Line.cpp:884-893: node submerged volume -/
noncomputable def v (i : ℕ) : ℝ := 1 / 2 * adjacent L.N (fun j => F L e j * L.V j) i

/-- source/Line.cpp:895-898: node mass matrix -/
noncomputable def M (i : ℕ) : M3 ℝ :=
  let Q := vecMulVec (q L i) (q L i)
  m L i • 1 + (e.rho_w * v L e i) • (L.Can • (1 - Q) + L.Cat • Q)

/-! ## Tension and damping -/

/-- source/Line.cpp:62-78 `getNonlinearE` -/
noncomputable def getNonlinearE (l_stretched l_unstretched : ℝ) : ℝ :=
  match L.stiff with
  | none => L.E
  | some f =>
    let Xi := l_stretched / l_unstretched - 1
    if Xi < 0 then 0 else f Xi / Xi

/-- source/Line.cpp:906-916: tension of a segment -/
noncomputable def T (i : ℕ) : V :=
  let E := getNonlinearE L (lstr L i) (L.l i)
  if lstr L i / L.l i > 1 then
    (E * L.A * (lstr L i - L.l i) / L.l i) • qs L i
  else 0

/-- source/Line.cpp:94-122 `getNonlinearC`. `none` is the NaN (or infinity) of the division by a null
rate. -/
noncomputable def getNonlinearC (ld_stretched l_unstretched : ℝ) : Option ℝ :=
  match L.damp with
  | none => some L.c
  | some f =>
    let Xi := ld_stretched / l_unstretched
    let Xsign : ℝ := if Xi < 0 then -1 else 1
    let Xabs := if Xi < 0 then -Xi else Xi
    let X := if L.dampNeg then Xi else Xabs
    let Yi := if L.dampNeg then f X else f X * Xsign
    if X = 0 then none else some (Yi / X)

/-- source/Line.cpp:918-921: internal damping force of a segment -/
noncomputable def Td (i : ℕ) : Option V := do
  let c ← getNonlinearC L (ldstr L i) (L.l i)
  return (c * L.A * ldstr L i / L.l i) • qs L i

/-! ## Bending -/

/-- source/Line.cpp:80-92 `getNonlinearEI` -/
noncomputable def getNonlinearEI (curv : ℝ) : ℝ :=
  match L.bstiff with
  | none => L.EI
  | some f => f curv / curv

/-- `a[k] += v` -/
def addAt (a : ℕ → V) (k : ℕ) (x : V) : ℕ → V := fun j => if j = k then a j + x else a j

open Classical in
/-- One iteration of the loop of bending forces, source/Line.cpp:934-1022 -/
noncomputable def bendNode (Bs : ℕ → V) (i : ℕ) : ℕ → V :=
  let K := Kurv L i
  if EqualRealNos K 0 then Bs
  else if i = 0 then
    if L.endTypeA = .CANTILEVERED then
      let EI := getNonlinearEI L K
      let Mforce_ip1 := (K * EI / lstr L i) • (qs L 0 ⨯₃ pvec L i)
      let Mforce_i := -Mforce_ip1
      addAt (addAt Bs i Mforce_i) (i + 1) Mforce_ip1
    else Bs
  else if i = L.N then
    if L.endTypeB = .CANTILEVERED then
      let EI := getNonlinearEI L K
      let Mforce_im1 := (K * EI / lstr L (i - 1)) • (qs L (i - 1) ⨯₃ pvec L i)
      let Mforce_i := -Mforce_im1
      addAt (addAt Bs (i - 1) Mforce_im1) i Mforce_i
    else Bs
  else
    let EI := getNonlinearEI L K
    let Mforce_im1 := (K * EI / lstr L (i - 1)) • (qs L (i - 1) ⨯₃ pvec L i)
    let Mforce_ip1 := (K * EI / lstr L i) • (qs L i ⨯₃ pvec L i)
    let Mforce_i := -Mforce_im1 - Mforce_ip1
    addAt (addAt (addAt Bs (i - 1) Mforce_im1) i Mforce_i) (i + 1) Mforce_ip1

open Classical in
/-- source/Line.cpp:924-1071: bending forces -/
noncomputable def Bs : ℕ → V :=
  if isEI L then (List.range (L.N + 1)).foldl (bendNode L) (fun _ => 0) else fun _ => 0

open Classical in
/-- source/Line.cpp:1073-1093: bending due to internal pressure -/
noncomputable def Pb (i : ℕ) : V :=
  if L.isPb ∧ ¬ EqualRealNos (Kurv L i) 0 then
    let h := max 0 (e.zeta i - L.r i 2)
    let p := L.pin i - (e.rho_w * e.g * h + e.pdyn i)
    let nvec := q L i ⨯₃ pvec L i
    (1 / 2 * L.A * adjacent L.N L.l i * p * Kurv L i) • nvec
  else 0

/-! ## External forces -/

/-- source/Line.cpp:1096-1108: submerged weight -/
noncomputable def W (i : ℕ) : V :=
  ![0, 0, 1 / 2 * L.A * adjacent L.N (fun j => L.l j * (L.rho - F L e j * e.rho_w)) i * (-e.g)]

/-- source/Line.cpp:1111: relative flow velocity -/
def vrel (i : ℕ) : V := e.U i - L.rd i

/-- source/Line.cpp:1112-1115: its tangential component -/
noncomputable def vq (i : ℕ) : V := (vrel L e i ⬝ᵥ q L i) • q L i

/-- source/Line.cpp:1117: its transverse component -/
noncomputable def vp (i : ℕ) : V := vrel L e i - vq L e i

/-- source/Line.cpp:1122-1130: transverse drag -/
noncomputable def Dp (i : ℕ) : V :=
  (1 / 4 * norm (vp L e i) * e.rho_w * L.Cdn * L.d * adjacent L.N (fun j => F L e j * L.l j) i) •
    vp L e i

/-- source/Line.cpp:1132-1141: tangential drag -/
noncomputable def Dq (i : ℕ) : V :=
  (1 / 4 * norm (vq L e i) * e.rho_w * L.Cdt * Real.pi * L.d *
    adjacent L.N (fun j => F L e j * L.l j) i) • vq L e i

/-- source/Line.cpp:1143-1146: tangential acceleration of the water -/
noncomputable def aq (i : ℕ) : V := (e.Ud i ⬝ᵥ q L i) • q L i

/-- source/Line.cpp:1147-1148: its normal component -/
noncomputable def ap (i : ℕ) : V := e.Ud i - aq L e i

/-- source/Line.cpp:1150-1157: transverse Froude-Krylov force -/
noncomputable def Ap (i : ℕ) : V :=
  (e.rho_w * (1 + L.Can) * (1 / 2) * adjacent L.N (fun j => F L e j * L.V j) i) • ap L e i

/-- source/Line.cpp:1158-1165: tangential Froude-Krylov force -/
noncomputable def Aq (i : ℕ) : V :=
  (e.rho_w * (1 + L.Cat) * (1 / 2) * adjacent L.N (fun j => F L e j * L.V j) i) • aq L e i

/-- source/Line.cpp:1167-1213: seabed contact and friction -/
noncomputable def B (i : ℕ) : V :=
  let x := L.r i
  let xd := L.rd i
  let waterDepth := e.waterDepth (x 0) (x 1)
  if x 2 < waterDepth then
    let Bz := ((waterDepth - x 2) * e.kb - xd 2 * e.cb) * (1 / 2) * L.d * adjacent L.N L.l i
    let FrictionMax := |Bz| * e.frictionCoefficient
    let BottomVel := Real.sqrt (xd 0 * xd 0 + xd 1 * xd 1)
    let FrictionForce := BottomVel * e.frictionCoefficient * e.fricDamp
    let FrictionForce :=
      if FrictionForce > e.statDynFricScale * FrictionMax then FrictionMax else FrictionForce
    if BottomVel = 0 then ![0, 0, Bz]
    else ![-FrictionForce * xd 0 / BottomVel, -FrictionForce * xd 1 / BottomVel, Bz]
  else 0

/-- source/Line.cpp:1216-1221: tension and damping on a node -/
noncomputable def axial (i : ℕ) : Option V :=
  if i = 0 then do
    let td ← Td L i
    return T L i + td
  else if i = L.N then do
    let td ← Td L (i - 1)
    return -T L (i - 1) - td
  else do
    let td ← Td L i
    let td1 ← Td L (i - 1)
    return T L i - T L (i - 1) + td - td1

/-- source/Line.cpp:1215-1223: net force on a node -/
noncomputable def Fnet (i : ℕ) : Option V := do
  let f ← axial L i
  return f + (W L e i + (Dp L e i + Dq L e i + Ap L e i + Aq L e i) + B L e i + Bs L i + Pb L e i)

/-! ## What is reported -/

/-- source/Line.hpp:519-532 `getNodeTen`; `none` for a bad index (exception) or NaN -/
noncomputable def getNodeTen (i : ℕ) : Option V :=
  if i > L.N then none
  else if i = 0 then do
    let td ← Td L 0
    return T L 0 + td
  else if i = L.N then do
    let td ← Td L (L.N - 1)
    return T L (L.N - 1) + td
  else do
    let td ← Td L i
    let td1 ← Td L (i - 1)
    return (1 / 2 : ℝ) • (T L i + T L (i - 1) + td + td1)

/-- source/Line.cpp:1826-1832 `MoorDyn_GetLineFairTen` -/
noncomputable def fairTen : Option ℝ := do
  let t ← getNodeTen L L.N
  return norm t

/-- source/Line.cpp:560-561 (`Ten` of an end node), 564-567 (`TenA`, `TenB`) in `GetLineOutput`: the
tension at an end as written to the output files -/
noncomputable def outputTen (p : ℕ) : Option ℝ := do
  let f ← Fnet L e p
  return norm f

/-- Loop of source/Line.cpp:1834-1847 `MoorDyn_GetLineMaxTen` over nodes `i`, ..., `i + fuel - 1` -/
noncomputable def maxTenLoop (L : Line) : ℕ → ℕ → ℝ → Option ℝ
  | _, 0, t_max => some t_max
  | i, fuel + 1, t_max => do
    let t ← getNodeTen L i
    maxTenLoop L (i + 1) fuel (if norm t > t_max then norm t else t_max)

/-- source/Line.cpp:1834-1847 `MoorDyn_GetLineMaxTen` -/
noncomputable def maxTen : Option ℝ := maxTenLoop L 0 L.N 0

/-- source/Line.hpp:610-618 `getNodeSeabedForce` -/
noncomputable def getNodeSeabedForce (i : ℕ) : Option V :=
  if i > L.N then none else some (B L e i + Bs L i)

/-- source/Line.hpp:576-584 `getNodeDrag` -/
noncomputable def getNodeDrag (i : ℕ) : Option V :=
  if i > L.N then none else some (Dp L e i + Dq L e i)

/-- source/Line.hpp:417 `isConstantEA` -/
def isConstantEA : Bool := L.stiff.isSome

/-- source/Line.hpp:425 `getConstantEA` -/
noncomputable def getConstantEA : ℝ := L.E * L.A

/-- source/Line.hpp:433 `setConstantEA` -/
noncomputable def setConstantEA (EA : ℝ) : Line := { L with E := EA / L.A }

/-- source/Line.hpp:667-676 `getFASTtens`: horizontal and vertical tensions at the fairlead and the
anchor (conversion to `float` aside) -/
noncomputable def getFASTtens : Option (ℝ × ℝ × ℝ × ℝ) := do
  let fN ← Fnet L e L.N
  let f0 ← Fnet L e 0
  return (Real.sqrt (fN 0 ^ 2 + fN 1 ^ 2), fN 2 + M L e L.N 0 0 * (-e.g),
    Real.sqrt (f0 0 ^ 2 + f0 1 ^ 2), f0 2 + M L e 0 0 0 * (-e.g))

/-- The two ends of a line -/
inductive EndPt | TOP | BOTTOM
  deriving DecidableEq

/-- source/Line.hpp:686-706 `getEndStuff`: force, moment and mass matrix given to the object to which the
end is attached. The moments `endMomentA` and `endMomentB` are set to zero in `setup`
(source/Line.cpp:225-226) and never written again. -/
noncomputable def getEndStuff (p : EndPt) : Option (V × V × M3 ℝ) :=
  match p with
  | .TOP => do
    let f ← Fnet L e L.N
    return (f, 0, M L e L.N)
  | .BOTTOM => do
    let f ← Fnet L e 0
    return (f, 0, M L e 0)

end MD.Mooring
