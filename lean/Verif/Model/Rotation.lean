import Verif.Model.Matrix
import Mathlib.Analysis.SpecialFunctions.Complex.Arg

/-!
# Model of the orientation of bodies and rods

`source/Misc.hpp` (quaternions and Euler angles), and the parts of `source/Body.cpp` and
`source/Rod.cpp` which use them. The quaternion type of Eigen is modelled by its four
coefficients; `toRotationMatrix`, `normalized`, the product and the conversion from
`AngleAxis` follow Eigen's implementation. Real arithmetic replaces `double`.
-/

namespace MD.Rot

open Matrix MD.Mat

/-- `quaternion` (Eigen), by coefficients -/
@[ext] structure Quat (K : Type) where
  w : K
  x : K
  y : K
  z : K

variable {K : Type} [CommRing K]

namespace Quat

/-- Eigen `Quaternion::operator*` -/
def mul (a b : Quat K) : Quat K where
  w := a.w * b.w - a.x * b.x - a.y * b.y - a.z * b.z
  x := a.w * b.x + a.x * b.w + a.y * b.z - a.z * b.y
  y := a.w * b.y + a.y * b.w + a.z * b.x - a.x * b.z
  z := a.w * b.z + a.z * b.w + a.x * b.y - a.y * b.x

/-- product of the coefficients by a number -/
def smul (c : K) (a : Quat K) : Quat K := ⟨c * a.w, c * a.x, c * a.y, c * a.z⟩

/-- sum of coefficients -/
def add (a b : Quat K) : Quat K := ⟨a.w + b.w, a.x + b.x, a.y + b.y, a.z + b.z⟩

/-- Eigen `squaredNorm` -/
def normSq (a : Quat K) : K := a.w * a.w + a.x * a.x + a.y * a.y + a.z * a.z

/-- Eigen `Quaternion::Identity` -/
def one : Quat K := ⟨1, 0, 0, 0⟩

/-- Eigen `Quaternion::toRotationMatrix` -/
def toMat (q : Quat K) : M3 K :=
  let tx := 2 * q.x
  let ty := 2 * q.y
  let tz := 2 * q.z
  let twx := tx * q.w
  let twy := ty * q.w
  let twz := tz * q.w
  let txx := tx * q.x
  let txy := ty * q.x
  let txz := tz * q.x
  let tyy := ty * q.y
  let tyz := tz * q.y
  let tzz := tz * q.z
  !![1 - (tyy + tzz), txy - twz, txz + twy;
     txy + twz, 1 - (txx + tzz), tyz - twx;
     txz - twy, tyz + twx, 1 - (txx + tyy)]

/-- Eigen `normalized`: divided by the norm unless it is null -/
noncomputable def normalized (q : Quat ℝ) : Quat ℝ :=
  if 0 < q.normSq then q.smul (1 / Real.sqrt q.normSq) else q

end Quat

/-- The orientation matrix of a body or rod, source/Body.cpp:130,434,469 and source/Rod.cpp:455,540,557:
`r7.quat.normalized().toRotationMatrix()` -/
noncomputable def orMat (q : Quat ℝ) : M3 ℝ := q.normalized.toMat

/-- The C function `atan2(y, x)`, signed zeros and infinities aside -/
noncomputable def atan2 (y x : ℝ) : ℝ := Complex.arg ⟨x, y⟩

/-- source/Misc.hpp:171-253 `canonicalEulerAngles`. The axes `a0 a1 a2` are 0, 1, 2 for x, y, z -/
noncomputable def canonicalEulerAngles (quat : Quat ℝ) (a0 a1 a2 : Fin 3) : V3 ℝ :=
  let coeff := quat.normalized.toMat
  let odd : Fin 3 := if a0 + 1 = a1 then 0 else 1
  let i := a0
  let j := a0 + 1 + odd
  let k := a0 + 2 - odd
  let res : V3 ℝ :=
    if a0 = a2 then
      let s2 := Real.sqrt (coeff j i ^ 2 + coeff k i ^ 2)
      let r0 := if odd = 1 then atan2 (coeff j i) (coeff k i)
        else atan2 (-coeff j i) (-coeff k i)
      let r1 := if odd = 1 then atan2 s2 (coeff i i) else -atan2 s2 (coeff i i)
      let s1 := Real.sin r0
      let c1 := Real.cos r0
      ![r0, r1, atan2 (c1 * coeff j k - s1 * coeff k k) (c1 * coeff j j - s1 * coeff k j)]
    else
      let r0 := atan2 (coeff j k) (coeff k k)
      let c2 := Real.sqrt (coeff i i ^ 2 + coeff i j ^ 2)
      let r1 := atan2 (-coeff i k) c2
      let s1 := Real.sin r0
      let c1 := Real.cos r0
      ![r0, r1, atan2 (s1 * coeff k i - c1 * coeff j i) (c1 * coeff j j - s1 * coeff k j)]
  if odd = 0 then -res else res

/-- source/Misc.hpp:255-260 `Quat2Euler` -/
noncomputable def quat2Euler (q : Quat ℝ) : V3 ℝ := canonicalEulerAngles q 0 1 2

/-- Eigen `Quaternion(AngleAxis)` with one of the unit vectors -/
noncomputable def angleAxis (a : ℝ) : Axis → Quat ℝ
  | .X => ⟨Real.cos (a / 2), Real.sin (a / 2), 0, 0⟩
  | .Y => ⟨Real.cos (a / 2), 0, Real.sin (a / 2), 0⟩
  | .Z => ⟨Real.cos (a / 2), 0, 0, Real.sin (a / 2)⟩

/-- source/Misc.hpp:262-270 `Euler2Quat` -/
noncomputable def euler2Quat (a : V3 ℝ) : Quat ℝ :=
  ((angleAxis (a 0) .X).mul (angleAxis (a 1) .Y)).mul (angleAxis (a 2) .Z)

/-- The rate given to the orientation, source/Body.cpp:494 and 508, source/Rod.cpp:662-663 and 682-683
(`0.5 * (quaternion(0.0, v6[3], v6[4], v6[5]) * r7.quat).coeffs()`) -/
noncomputable def quatRate (w : V3 ℝ) (q : Quat ℝ) : Quat ℝ :=
  (Quat.mul ⟨0, w 0, w 1, w 2⟩ q).smul (1 / 2)

/-- source/Rod.cpp:639-657: the rate of a free rod, `N` its number of segments. -/
noncomputable def rodQuatRate (N : ℕ) (w : V3 ℝ) (q : Quat ℝ) : Quat ℝ :=
  if N = 0 then Quat.one else quatRate w q

/-- What a coupled body stores in `initiateStep` (source/Body.cpp:394-403): position and velocity, three
translations and three angles each -/
structure BC where
  r : V3 ℝ
  ang : V3 ℝ
  rd : V3 ℝ
  angd : V3 ℝ

/-- source/Body.cpp:423-440 `updateFairlead` of a coupled body and source/Body.cpp:252-281
`setDependentStates`: position and velocity given, at the time `t` of the step, to a point
placed at `rRel` of the body -/
noncomputable def coupledBodyPoint (bc : BC) (rRel : V3 ℝ) (t : ℝ) : V3 ℝ × V3 ℝ :=
  let pos := bc.r + t • bc.rd
  let quat := euler2Quat (bc.ang + t • bc.angd)
  transformKinematics rRel (orMat quat) pos bc.rd bc.angd

end MD.Rot
