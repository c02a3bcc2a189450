import Verif.Model.Line
import Verif.Model.Rotation
import Mathlib.Analysis.SpecialFunctions.Trigonometric.Inverse

/-!
# Model of rods (`source/Rod.cpp`, `source/Rod.hpp`)

Over the reals. The geometry set by `Rod::setup` and `Rod::setDependentStates`, the forces and
masses of `Rod::doRHS` (source/Rod.cpp:866-1358) and the shift to a reference point
(`Rod::getNetForceAndMass`). Arrays are functions of the node index `0 ≤ i ≤ N`.

Not modelled: the NaN check of the positions, the solution of the 6x6 system (`solveMat6`), which
is described by the equation it solves, the equilibrium orientation of zero-length rods
(source/Rod.cpp:569-596) and rounding. `waves->getWaveKinRod` is given by the `Env` of the line model:
elevation, velocity, acceleration and dynamic pressure at the nodes.
-/

namespace MD.Rods

open Matrix MD.Mat MD.Rot MD.Mooring Finset

/-- The fields of a `Rod` read by `doRHS` (source/Rod.hpp:100-260). `r0`, `v6` (`vA`, `w`) and `q` are
position and velocities of end A and the axis. -/
structure Rod where
  N : ℕ
  d : ℝ
  rho : ℝ
  Can : ℝ
  Cat : ℝ
  Cdn : ℝ
  CdEnd : ℝ
  CaEnd : ℝ
  UnstrLen : ℝ
  r0 : V
  q : V
  vA : V
  w : V
  /-- what `getEndStuff` of the lines attached to end A and B returns: force, moment, mass -/
  attachedA : List (V × V × M3 ℝ)
  attachedB : List (V × V × M3 ℝ)

variable (R : Rod) (e : Env)

/-- source/Misc.cpp:314-329 `orientationAngles`: inclination and heading, `none` when it throws -/
noncomputable def orientationAngles (v : V) : Option (ℝ × ℝ) :=
  if v ⬝ᵥ v < 1 / 10 ^ 12 then none
  else
    let l := Real.sqrt (v 0 * v 0 + v 1 * v 1)
    some (atan2 l (v 2), if |l| < 1 / 10 ^ 6 then 0 else atan2 (v 1) (v 0))

/-- source/Rod.cpp:873: zero-length rods have no angles -/
noncomputable def angles : Option (ℝ × ℝ) :=
  if R.N = 0 then some (0, 0) else orientationAngles R.q

/-! ## Geometry -/

/-- source/Rod.cpp:130, 136-138: segment length, `l[i]` -/
noncomputable def l : ℝ := if R.N = 0 then 0 else R.UnstrLen / R.N

/-- source/Rod.cpp:131, 139 and 893: segment volume, `V[i]` -/
noncomputable def segV : ℝ := if R.N = 0 then 0 else l R * (1 / 4) * Real.pi * R.d * R.d

/-- source/Rod.cpp:550-559 (ends) and 889-894 (interior nodes): node positions -/
noncomputable def r (i : ℕ) : V :=
  let rN := if R.N = 0 then R.r0 else R.r0 + R.UnstrLen • R.q
  if i = 0 then R.r0
  else if i = R.N then rN
  else R.r0 + ((i : ℝ) / R.N) • (rN - R.r0)

/-- source/Rod.cpp:552, 560-561 and 892: node velocities -/
noncomputable def rd (i : ℕ) : V :=
  let rdN := if R.N = 0 then R.vA else R.vA + R.w ⨯₃ (R.UnstrLen • R.q)
  if i = 0 then R.vA
  else if i = R.N then rdN
  else R.vA + ((i : ℝ) / R.N) • (rdN - R.vA)

/-- source/Rod.cpp:918-920: the elevation used for the whole rod is that of end B -/
def zetaI : ℝ := e.zeta R.N

/-- source/Rod.cpp:923-930: waterline crossing along the axis -/
noncomputable def h0 : ℝ :=
  let z0 := r R 0 2
  let zN := r R R.N 2
  let ze := zetaI R e
  if z0 < ze ∧ zN < ze then R.UnstrLen
  else if z0 < ze ∧ zN > ze then (ze - z0) / R.q 2
  else if zN < ze ∧ z0 > ze then -(ze - z0) / R.q 2
  else 0

/-- source/Rod.cpp:945-957: length attributed to node `i` -/
noncomputable def dL (i : ℕ) : ℝ :=
  if i = 0 then 1 / 2 * l R else if i = R.N then 1 / 2 * l R else 1 / 2 * (l R + l R)

/-- source/Rod.cpp:943 -/
noncomputable def area : ℝ := 1 / 4 * Real.pi * R.d * R.d

/-- source/Rod.cpp:945-957: mass of node `i` -/
noncomputable def m (i : ℕ) : ℝ := area R * dL R i * R.rho

/-- source/Rod.cpp:945-957: volume of node `i` -/
noncomputable def v (i : ℕ) : ℝ :=
  if i = 0 then 1 / 2 * segV R else if i = R.N then 1 / 2 * segV R
  else 1 / 2 * (segV R + segV R)

/-- source/Rod.cpp:936 and 992: length before node `i` -/
noncomputable def Lsum : ℕ → ℝ
  | 0 => 0
  | i + 1 => Lsum i + dL R i

/-- source/Rod.cpp:961-976: axial submerged fraction of a node, given the waterline crossing, the length
before the node and the length of the node -/
noncomputable def vof0 (h Ls dl : ℝ) : ℝ :=
  if h < 0 then
    if Ls + dl ≥ h then 1 else if Ls > h then (h - Ls) / dl else 0
  else
    if Ls + dl ≤ h then 1 else if Ls < h then (h - Ls) / dl else 0

/-- source/Rod.cpp:995-997: highest elevation of the cross section at height `z` -/
noncomputable def z1hi (z sinPhi : ℝ) : ℝ := z + 1 / 2 * R.d * |sinPhi|

/-- source/Rod.cpp:998-1000: lowest elevation -/
noncomputable def z1lo (z sinPhi : ℝ) : ℝ := z - 1 / 2 * R.d * |sinPhi|

/-- source/Rod.cpp:1002-1028: submerged area of the cross section and height of its centroid. Where the
section just touches the water from above (`al = 0`) the height is 0/0 in the code, it is not used
then (source/Rod.cpp:1128, 1157 ask for `z1lo < zeta_i`). -/
noncomputable def crossSection (z ze sinPhi : ℝ) : ℝ × ℝ :=
  if z1lo R z sinPhi > ze then (0, 0)
  else if z1hi R z sinPhi < ze then (Real.pi * (1 / 4) * R.d * R.d, z)
  else if |sinPhi| < 1 / 1000 then (1 / 2, 0)
  else
    let G := (z - ze) / |sinPhi|
    let al := Real.arccos (2 * G / R.d)
    (R.d * R.d / 8 * (2 * al - Real.sin (2 * al)),
      z - 6666666666 / 10 ^ 10 * R.d * Real.sin al ^ 3 / (2 * al - Real.sin (2 * al)))

/-- source/Rod.cpp:1029-1030 -/
noncomputable def vof (phi : ℝ) (i : ℕ) : ℝ :=
  vof0 (h0 R e) (Lsum R i) (dL R i) * Real.cos phi * Real.cos phi
    + (crossSection R (r R i 2) (zetaI R e) (Real.sin phi)).1 / (1 / 4 * Real.pi * R.d * R.d)
      * Real.sin phi * Real.sin phi

/-! ## Masses -/

/-- `q * q.transpose()`, source/Rod.cpp:1034 -/
def Q (u : V) : M3 ℝ := vecMulVec u u

/-- source/Rod.cpp:1145, 1173 `V_temp` -/
noncomputable def VEnd : ℝ := 2 / 3 * Real.pi * R.d * R.d * R.d / 8

/-- source/Rod.cpp:1128 and 1157: whether the end effects of node `i` are on -/
def endWet (phi : ℝ) (i : ℕ) : Prop := z1lo R (r R i 2) (Real.sin phi) < zetaI R e

open Classical in
/-- source/Rod.cpp:1033-1035, 1153, 1181: hydrodynamic added mass of node `i` -/
noncomputable def addedM (phi : ℝ) (i : ℕ) : M3 ℝ :=
  (vof R e phi i * e.rho_w * v R i) • (R.Can • (1 - Q R.q) + R.Cat • Q R.q)
    + (if i = 0 ∧ endWet R e phi i then (vof R e phi i * e.rho_w * R.CaEnd * VEnd R) • Q R.q
        else 0)
    + (if i = R.N ∧ endWet R e phi i then (vof R e phi i * e.rho_w * R.CaEnd * VEnd R) • Q R.q
        else 0)

/-- source/Rod.cpp:1224 and 1248: mass received from the lines attached to node `i` -/
noncomputable def lineM (i : ℕ) : M3 ℝ :=
  (if i = 0 then (R.attachedA.map fun a => a.2.2).sum else 0)
    + (if i = R.N then (R.attachedB.map fun a => a.2.2).sum else 0)

/-- `M[i]`, source/Rod.cpp:1035, with the end effects and attached lines -/
noncomputable def M (phi : ℝ) (i : ℕ) : M3 ℝ :=
  m R i • (1 : M3 ℝ) + addedM R e phi i + lineM R i

/-! ## Forces on the nodes -/

/-- source/Rod.cpp:1044: relative flow velocity -/
noncomputable def vi (i : ℕ) : V := e.U i - rd R i

/-- source/Rod.cpp:1046: tangential flow -/
noncomputable def vq (i : ℕ) : V := (vi R e i ⬝ᵥ R.q) • R.q

/-- source/Rod.cpp:1048: transverse flow -/
noncomputable def vp (i : ℕ) : V := vi R e i - vq R e i

/-- source/Rod.cpp:1054-1055: tangential fluid acceleration -/
noncomputable def aq (i : ℕ) : V := (e.Ud i ⬝ᵥ R.q) • R.q

/-- source/Rod.cpp:1056: transverse fluid acceleration -/
noncomputable def ap (i : ℕ) : V := e.Ud i - aq R e i

/-- source/Rod.cpp:1069-1070, 1114: weight -/
noncomputable def W (i : ℕ) : V := if R.N = 0 then 0 else ![0, 0, -m R i * e.g]

/-- source/Rod.cpp:1078-1082, 1115: lateral buoyancy -/
noncomputable def BoSide (phi beta : ℝ) (i : ℕ) : V :=
  if R.N = 0 then 0
  else
    let Ftemp := -vof R e phi i * v R i * e.rho_w * e.g * Real.sin phi
    ![Ftemp * Real.cos beta * Real.cos phi, Ftemp * Real.sin beta * Real.cos phi,
      -Ftemp * Real.sin phi]

/-- The bracket of source/Rod.cpp:1132-1134 and 1160-1162: `Ftemp` along the axis -/
noncomputable def axial (F phi beta : ℝ) : V :=
  ![F * Real.cos beta * Real.sin phi, F * Real.sin beta * Real.sin phi, F * Real.cos phi]

/-- source/Rod.cpp:1002-1028: height of the centroid of the section of node `i` -/
noncomputable def zA (phi : ℝ) (i : ℕ) : ℝ :=
  (crossSection R (r R i 2) (zetaI R e) (Real.sin phi)).2

open Classical in
/-- source/Rod.cpp:1128-1134: buoyancy on the cap at end A -/
noncomputable def BoA (phi beta : ℝ) (i : ℕ) : V :=
  if i = 0 ∧ endWet R e phi i then
    axial (-vof R e phi i * area R * e.rho_w * e.g * zA R e phi i) phi beta
  else 0

open Classical in
/-- source/Rod.cpp:1157-1162: buoyancy on the cap at end B -/
noncomputable def BoB (phi beta : ℝ) (i : ℕ) : V :=
  if i = R.N ∧ endWet R e phi i then
    axial (vof R e phi i * area R * e.rho_w * e.g * zA R e phi i) phi beta
  else 0

/-- `Bo[i]`, source/Rod.cpp:1080, 1132, 1160 -/
noncomputable def Bo (phi beta : ℝ) (i : ℕ) : V :=
  BoSide R e phi beta i + BoA R e phi beta i + BoB R e phi beta i

/-- source/Rod.cpp:1085, 1116: transverse drag -/
noncomputable def Dp (phi : ℝ) (i : ℕ) : V :=
  if R.N = 0 then 0
  else (vof R e phi i * (1 / 2) * e.rho_w * R.Cdn * R.d * dL R i * Mooring.norm (vp R e i)) • vp R e i

open Classical in
/-- source/Rod.cpp:1086, 1117, 1142, 1170: axial drag, only at the caps -/
noncomputable def Dq (phi : ℝ) (i : ℕ) : V :=
  (if i = 0 ∧ endWet R e phi i then
    (1 / 2 * vof R e phi i * area R * e.rho_w * R.CdEnd * Mooring.norm (vq R e i)) • vq R e i else 0)
  + (if i = R.N ∧ endWet R e phi i then
    (1 / 2 * vof R e phi i * area R * e.rho_w * R.CdEnd * Mooring.norm (vq R e i)) • vq R e i else 0)

/-- source/Rod.cpp:1092, 1118: transverse fluid inertia -/
noncomputable def Ap (phi : ℝ) (i : ℕ) : V :=
  if R.N = 0 then 0 else (vof R e phi i * e.rho_w * (1 + R.Can) * v R i) • ap R e i

open Classical in
/-- source/Rod.cpp:1093, 1119, 1146, 1174: axial fluid inertia -/
noncomputable def Aq (phi : ℝ) (i : ℕ) : V :=
  (if i = 0 ∧ endWet R e phi i then
    (vof R e phi i * e.rho_w * R.CaEnd * VEnd R) • aq R e i else 0)
  + (if i = R.N ∧ endWet R e phi i then
    (vof R e phi i * e.rho_w * R.CaEnd * VEnd R) • aq R e i else 0)

open Classical in
/-- source/Rod.cpp:1097, 1120, 1149, 1177: dynamic pressure -/
noncomputable def Pd (phi : ℝ) (i : ℕ) : V :=
  (if i = 0 ∧ endWet R e phi i then (vof R e phi i * area R * e.pdyn i) • R.q else 0)
  + (if i = R.N ∧ endWet R e phi i then (-vof R e phi i * area R * e.pdyn i) • R.q else 0)

/-- source/Rod.cpp:1103-1112, 1121: seabed -/
noncomputable def B (i : ℕ) : V :=
  if R.N = 0 then 0
  else
    let depth := e.waterDepth (r R i 0) (r R i 1)
    if r R i 2 < depth then
      ![0, 0, ((depth - r R i 2) * e.kb - rd R i 2 * e.cb) * R.d * dL R i]
    else 0

/-- source/Rod.cpp:1221 and 1245: forces from the lines attached to node `i` -/
noncomputable def lineF (i : ℕ) : V :=
  (if i = 0 then (R.attachedA.map fun a => a.1).sum else 0)
    + (if i = R.N then (R.attachedB.map fun a => a.1).sum else 0)

/-- `Fnet[i]`, source/Rod.cpp:1185, 1221, 1245 -/
noncomputable def Fnet (phi beta : ℝ) (i : ℕ) : V :=
  W R e i + Bo R e phi beta i + Dp R e phi i + Dq R e phi i + Ap R e phi i + Aq R e phi i
    + Pd R e phi i + B R e i + lineF R i

/-! ## Moments -/

open Classical in
/-- source/Rod.cpp:1137-1139 and 1165-1167: moments on the caps -/
noncomputable def MextCap (phi beta : ℝ) : V :=
  let k := fun i => vof R e phi i * 1 / 64 * Real.pi * R.d * R.d * R.d * R.d * e.rho_w * e.g
    * Real.sin phi
  (if endWet R e phi 0 then ![-k 0 * Real.sin beta, k 0 * Real.cos beta, 0] else 0)
  + (if endWet R e phi R.N then ![k R.N * Real.sin beta, -(k R.N) * Real.cos beta, 0] else 0)

/-- source/Rod.cpp:1188-1194: waterplane moment -/
noncomputable def MextWater (phi beta : ℝ) : V :=
  if r R 0 2 < zetaI R e ∧ r R R.N 2 > zetaI R e then
    (1 / 16 * Real.pi * R.d * R.d * R.d * R.d * e.rho_w * e.g * Real.sin phi * Real.cos phi)
      • ![Real.sin beta, -Real.cos beta, 0]
  else 0

/-- source/Rod.cpp:1223 and 1247: moments from attached lines -/
noncomputable def MextLine : V :=
  (R.attachedA.map fun a => a.2.1).sum + (R.attachedB.map fun a => a.2.1).sum

/-- `Mext`, source/Rod.cpp:932, 1139, 1167, 1193, 1223, 1247 -/
noncomputable def Mext (phi beta : ℝ) : V :=
  MextCap R e phi beta + MextWater R e phi beta + MextLine R

/-! ## 6 DOF quantities about end A -/

/-- source/Rod.cpp:1264-1278: force and moment of the nodes about end A, and source/Rod.cpp:1351 the external
moment; `F6net` as force and moment -/
noncomputable def F6net (phi beta : ℝ) : V × V :=
  (∑ i ∈ range (R.N + 1), Fnet R e phi beta i,
    ∑ i ∈ range (R.N + 1), (r R i - r R 0) ⨯₃ Fnet R e phi beta i + Mext R e phi beta)

/-- source/Rod.cpp:1287 -/
noncomputable def mass : ℝ := R.UnstrLen * (1 / 4) * Real.pi * R.d * R.d * R.rho

/-- source/Rod.cpp:1316-1317: the product `6 * N * N` is of type `unsigned int` -/
def sixNN (N : ℕ) : ℕ := 6 * N * N % 2 ^ 32

/-- source/Rod.cpp:1306-1322: inertia added to the nodal masses, in axes of the rod: two radial terms and
an axial one. `none` stands for the division by zero. -/
noncomputable def inertiaCorrection : Option (ℝ × ℝ) :=
  if R.N = 0 then some (0, 0)
  else if sixNN R.N = 0 then none
  else
    let rad := R.d / 2
    some (mass R * (rad * rad / 4 - R.UnstrLen * R.UnstrLen / (sixNN R.N : ℝ)),
      mass R / 2 * rad * rad)

/-- source/Rod.cpp:1326-1327: the inertia in global axes -/
noncomputable def Imat (phi beta Ir Il : ℝ) : M3 ℝ :=
  rotateMass (rotZ beta * rotY phi) !![Ir, 0, 0; 0, Ir, 0; 0, 0, Il]

/-- source/Rod.cpp:1258-1331: `M6net` -/
noncomputable def M6net (phi beta : ℝ) : Option (M6 ℝ) :=
  (inertiaCorrection R).map fun c =>
    ∑ i ∈ range (R.N + 1), translateMass (r R i - r R 0) (M R e phi i)
      + fromBlocks 0 0 0 (Imat phi beta c.1 c.2)

/-- source/Rod.hpp:620-630 `getCentripetalForce` -/
noncomputable def centripetal (phi : ℝ) (p w : V) : V :=
  if R.N = 0 then 0
  else -∑ i ∈ range (R.N + 1), M R e phi i *ᵥ (w ⨯₃ (w ⨯₃ (r R i - p)))

/-- source/Rod.cpp:742-772 `getNetForceAndMass` about `rRef`, moving with angular velocity `w` (the
linear part of `vRef` is not read): force, moment and mass matrix -/
noncomputable def getNetForceAndMass (rRef w : V) : Option (V × V × M6 ℝ) :=
  (angles R).bind fun a =>
    (M6net R e a.1 a.2).map fun M6 =>
      let F := F6net R e a.1 a.2
      let rRel := r R 0 - rRef
      (F.1 + centripetal R e a.1 rRef w, F.2 + rRel ⨯₃ F.1, translateMass6 rRel M6)

/-- source/Rod.cpp:604-686 `getStateDeriv` of a free rod with segments: the acceleration is the solution
of `M6 a = F6`, `solveMat6`, with end A as reference point and no reference velocity (source/Rod.hpp:562-565).
Accelerations `(a, alpha)` that the code may return. -/
def freeAcc (a al : V) : Prop :=
  ∃ F Mo M6, getNetForceAndMass R e (r R 0) 0 = some (F, Mo, M6) ∧
    M6 *ᵥ Sum.elim a al = Sum.elim F Mo

/-! ## Outputs -/

/-- source/Rod.cpp:398-403: the output channel `Sub` -/
noncomputable def outSub (phi : ℝ) : ℝ :=
  (∑ i ∈ range (R.N + 1), vof R e phi i) / (R.N + 1)

/-! ## Starting position -/

/-- Eigen `normalized()` of a vector -/
noncomputable def normalized (u : V) : V :=
  if 0 < u ⬝ᵥ u then (1 / Mooring.norm u) • u else u

/-- Eigen `Quaternion::FromTwoVectors`; `none` for vectors pointing opposite ways, where Eigen
picks some half turn by a singular value decomposition -/
noncomputable def fromTwoVectors (a b : V) : Option (Quat ℝ) :=
  let v0 := normalized a
  let v1 := normalized b
  let c := v1 ⬝ᵥ v0
  if c < -1 + 1 / 10 ^ 12 then none
  else
    let axis := v0 ⨯₃ v1
    let s := Real.sqrt ((1 + c) * 2)
    let invs := 1 / s
    some ⟨s / 2, axis 0 * invs, axis 1 * invs, axis 2 * invs⟩

/-- source/Rod.cpp:135, 149-153 `Rod::setup` and source/Rod.cpp:544-562 `setDependentStates`, called by
`Rod::initialize` (source/Rod.cpp:322-325): positions of the ends of a free rod of nonzero length after
initialisation, given the coordinates of the input file -/
noncomputable def startEnds (A B : V) : Option (V × V) :=
  let u := unitvector A B
  (fromTwoVectors u.1 B).map fun quat => (A, A + u.2 • (orMat quat *ᵥ u.1))

/-- source/Rod.cpp:330-340: the state vector of a free rod starts at end A with the identity quaternion
(`XYZQuat::Zero`); this is where the ends are once the state has been set (`Rod::setState`) -/
noncomputable def stateEnds (A B : V) : V × V :=
  let u := unitvector A B
  (A, A + u.2 • (orMat Quat.one *ᵥ u.1))

end MD.Rods
