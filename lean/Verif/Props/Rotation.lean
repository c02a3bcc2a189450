import Verif.Model.Rotation
import Verif.Props.Matrix
import Mathlib.Analysis.Calculus.MeanValue
import Mathlib.Analysis.Calculus.Deriv.Prod
import Mathlib.Analysis.SpecialFunctions.Trigonometric.Deriv
import Mathlib.Tactic.FieldSimp
import Mathlib.Tactic.Positivity
import Mathlib.Tactic.Linarith

/-!
# Properties C42, C62 and C63: orientation
-/

set_option linter.unusedSimpArgs false
set_option linter.unusedSectionVars false

namespace MD.Rot

open Matrix MD.Mat

/-! ## Lemmas on quaternions -/

section ring
variable {K : Type} [CommRing K]

theorem normSq_mul (a b : Quat K) : (a.mul b).normSq = a.normSq * b.normSq := by
  simp only [Quat.mul, Quat.normSq]; ring

theorem toMat_mul_transpose (q : Quat K) (h : q.normSq = 1) : q.toMat * q.toMatᵀ = 1 := by
  simp only [Quat.normSq] at h
  ext i j
  fin_cases i <;> fin_cases j <;>
    simp [Quat.toMat, Matrix.mul_apply, Fin.sum_univ_three] <;> grobner

theorem toMat_det (q : Quat K) (h : q.normSq = 1) : q.toMat.det = 1 := by
  simp only [Quat.normSq] at h
  simp [Quat.toMat, det_fin_three]
  grobner

theorem toMat_mul (a b : Quat K) (ha : a.normSq = 1) (hb : b.normSq = 1) :
    (a.mul b).toMat = a.toMat * b.toMat := by
  simp only [Quat.normSq] at ha hb
  ext i j
  fin_cases i <;> fin_cases j <;>
    simp [Quat.toMat, Quat.mul, Matrix.mul_apply, Fin.sum_univ_three] <;> grobner

end ring


/-! ## Lemmas on rotation matrices -/

theorem normSq_nonneg (q : Quat ℝ) : 0 ≤ q.normSq := by
  have : q.normSq = q.w ^ 2 + q.x ^ 2 + q.y ^ 2 + q.z ^ 2 := by simp only [Quat.normSq]; ring
  rw [this]; positivity

theorem normSq_smul (c : ℝ) (q : Quat ℝ) : (q.smul c).normSq = c ^ 2 * q.normSq := by
  simp only [Quat.normSq, Quat.smul]; ring

theorem normSq_normalized (q : Quat ℝ) (h : 0 < q.normSq) : q.normalized.normSq = 1 := by
  rw [Quat.normalized, if_pos h, normSq_smul, div_pow, Real.sq_sqrt h.le]
  field_simp

theorem normalized_of_unit (q : Quat ℝ) (h : q.normSq = 1) : q.normalized = q := by
  rw [Quat.normalized, if_pos (by rw [h]; exact one_pos), h]
  simp [Quat.smul]

theorem mem_SO3 {R : M3 ℝ} (h : R * Rᵀ = 1) (hd : R.det = 1) :
    R ∈ Matrix.specialOrthogonalGroup (Fin 3) ℝ := by
  rw [mem_specialOrthogonalGroup_iff, mem_orthogonalGroup_iff]
  exact ⟨by simpa [star_eq_conjTranspose] using h, hd⟩

theorem angleAxis_normSq (a : ℝ) (p : Axis) : (angleAxis a p).normSq = 1 := by
  have h := Real.cos_sq_add_sin_sq (a / 2)
  cases p <;> simp [angleAxis, Quat.normSq] <;> linear_combination h

theorem angleAxis_toMat (a : ℝ) (p : Axis) : (angleAxis a p).toMat = rot p a := by
  have hc : Real.cos a = 2 * Real.cos (a / 2) ^ 2 - 1 := by
    rw [← Real.cos_two_mul]; congr 1; ring
  have hs : Real.sin a = 2 * Real.sin (a / 2) * Real.cos (a / 2) := by
    rw [← Real.sin_two_mul]; congr 1; ring
  have h := Real.cos_sq_add_sin_sq (a / 2)
  ext i j
  cases p <;> fin_cases i <;> fin_cases j <;>
    simp [angleAxis, Quat.toMat, rot, rotX, rotY, rotZ, hc, hs] <;>
    first | linear_combination 2 * h | linear_combination -2 * h

theorem euler2Quat_normSq (a : V3 ℝ) : (euler2Quat a).normSq = 1 := by
  simp [euler2Quat, normSq_mul, angleAxis_normSq]

theorem euler2Quat_toMat (a : V3 ℝ) :
    (euler2Quat a).toMat = rot3 .X .Y .Z (a 0) (a 1) (a 2) := by
  rw [euler2Quat, toMat_mul _ _ (by simp [normSq_mul, angleAxis_normSq]) (angleAxis_normSq _ _),
    toMat_mul _ _ (angleAxis_normSq _ _) (angleAxis_normSq _ _)]
  simp [angleAxis_toMat, rot3]

theorem euler2Quat_orMat (a : V3 ℝ) :
    orMat (euler2Quat a) = rot3 .X .Y .Z (a 0) (a 1) (a 2) := by
  rw [orMat, normalized_of_unit _ (euler2Quat_normSq a), euler2Quat_toMat]

theorem rot3_xyz (a b c : ℝ) : rot3 .X .Y .Z a b c =
    !![Real.cos b * Real.cos c, -(Real.cos b * Real.sin c), Real.sin b;
       Real.cos a * Real.sin c + Real.sin a * Real.sin b * Real.cos c,
         Real.cos a * Real.cos c - Real.sin a * Real.sin b * Real.sin c,
         -(Real.sin a * Real.cos b);
       Real.sin a * Real.sin c - Real.cos a * Real.sin b * Real.cos c,
         Real.sin a * Real.cos c + Real.cos a * Real.sin b * Real.sin c,
         Real.cos a * Real.cos b] := by
  ext i j
  fin_cases i <;> fin_cases j <;>
    simp [rot3, rot, rotX, rotY, rotZ, Matrix.mul_apply, Fin.sum_univ_three] <;> ring

theorem norm_mk (x y : ℝ) : ‖(⟨x, y⟩ : ℂ)‖ = Real.sqrt (x ^ 2 + y ^ 2) := by
  rw [Complex.norm_eq_sqrt_sq_add_sq]

theorem atan2_cos (y x : ℝ) : Real.sqrt (x ^ 2 + y ^ 2) * Real.cos (atan2 y x) = x := by
  have := Complex.norm_mul_cos_arg ⟨x, y⟩
  rwa [norm_mk] at this

theorem atan2_sin (y x : ℝ) : Real.sqrt (x ^ 2 + y ^ 2) * Real.sin (atan2 y x) = y := by
  have := Complex.norm_mul_sin_arg ⟨x, y⟩
  rwa [norm_mk] at this

theorem atan2_polar (r a : ℝ) (hr : 0 < r) (ha : a ∈ Set.Ioc (-Real.pi) Real.pi) :
    atan2 (r * Real.sin a) (r * Real.cos a) = a := by
  have h := Complex.arg_mul_cos_add_sin_mul_I hr ha
  rw [atan2]
  convert h using 2
  apply Complex.ext <;> simp [← Complex.ofReal_cos, ← Complex.ofReal_sin]

/-- The cofactors of a rotation are its entries -/
theorem cofactors {R : M3 ℝ} (h : R * Rᵀ = 1) (hd : R.det = 1) :
    R.adjugate = Rᵀ := by
  have h1 : R.adjugate * (R * Rᵀ) = Rᵀ := by
    rw [← Matrix.mul_assoc, adjugate_mul, hd, one_smul, Matrix.one_mul]
  rwa [h, Matrix.mul_one] at h1

theorem euler_of_rotation (R : M3 ℝ) (h : R * Rᵀ = 1) (hd : R.det = 1) :
    let r0 := atan2 (R 1 2) (R 2 2)
    let c2 := Real.sqrt (R 0 0 ^ 2 + R 0 1 ^ 2)
    let r1 := atan2 (-R 0 2) c2
    let r2 := atan2 (Real.sin r0 * R 2 0 - Real.cos r0 * R 1 0)
      (Real.cos r0 * R 1 1 - Real.sin r0 * R 2 1)
    rot3 .X .Y .Z (-r0) (-r1) (-r2) = R := by
  intro r0 c2 r1 r2
  have h' : Rᵀ * R = 1 := mul_eq_one_comm.1 h
  have adj := cofactors h hd
  have col2 : R 0 2 ^ 2 + R 1 2 ^ 2 + R 2 2 ^ 2 = 1 := by
    have := congrFun (congrFun h' 2) 2
    simp [Matrix.mul_apply, Fin.sum_univ_three] at this
    linear_combination this
  have row : ∀ i j, R i 0 * R j 0 + R i 1 * R j 1 + R i 2 * R j 2 = (1 : M3 ℝ) i j := by
    intro i j
    have := congrFun (congrFun h i) j
    simpa [Matrix.mul_apply, Fin.sum_univ_three] using this
  have row00 := row 0 0
  have row11 := row 1 1
  have row22 := row 2 2
  have row12 := row 1 2
  simp at row00 row11 row22 row12
  have hc2 : c2 ^ 2 = R 0 0 ^ 2 + R 0 1 ^ 2 := Real.sq_sqrt (by positivity)
  have e0 : Real.sqrt (R 2 2 ^ 2 + R 1 2 ^ 2) = c2 := by
    show _ = Real.sqrt _
    congr 1; linear_combination col2 - row00
  have k0 : c2 * Real.cos r0 = R 2 2 := by
    have := atan2_cos (R 1 2) (R 2 2); rwa [e0] at this
  have s0 : c2 * Real.sin r0 = R 1 2 := by
    have := atan2_sin (R 1 2) (R 2 2); rwa [e0] at this
  have e1 : Real.sqrt (c2 ^ 2 + (-R 0 2) ^ 2) = 1 := by
    rw [hc2]
    have : R 0 0 ^ 2 + R 0 1 ^ 2 + (-R 0 2) ^ 2 = 1 := by linear_combination row00
    rw [this, Real.sqrt_one]
  have k1 : Real.cos r1 = c2 := by
    have := atan2_cos (-R 0 2) c2; rwa [e1, one_mul] at this
  have s1 : Real.sin r1 = -R 0 2 := by
    have := atan2_sin (-R 0 2) c2; rwa [e1, one_mul] at this
  have cs := Real.cos_sq_add_sin_sq r0
  have zero : Real.cos r0 * R 1 2 - Real.sin r0 * R 2 2 = 0 := by
    linear_combination Real.sin r0 * k0 - Real.cos r0 * s0
  have e2 : Real.sqrt ((Real.cos r0 * R 1 1 - Real.sin r0 * R 2 1) ^ 2 +
      (Real.sin r0 * R 2 0 - Real.cos r0 * R 1 0) ^ 2) = 1 := by
    have : (Real.cos r0 * R 1 1 - Real.sin r0 * R 2 1) ^ 2 +
      (Real.sin r0 * R 2 0 - Real.cos r0 * R 1 0) ^ 2 = 1 := by
      linear_combination Real.cos r0 ^ 2 * row11 + Real.sin r0 ^ 2 * row22
        - 2 * Real.cos r0 * Real.sin r0 * row12 + cs
        - (Real.cos r0 * R 1 2 - Real.sin r0 * R 2 2) * zero
    rw [this, Real.sqrt_one]
  have k2 : Real.cos r2 = Real.cos r0 * R 1 1 - Real.sin r0 * R 2 1 := by
    have := atan2_cos (Real.sin r0 * R 2 0 - Real.cos r0 * R 1 0)
      (Real.cos r0 * R 1 1 - Real.sin r0 * R 2 1)
    rwa [e2, one_mul] at this
  have s2 : Real.sin r2 = Real.sin r0 * R 2 0 - Real.cos r0 * R 1 0 := by
    have := atan2_sin (Real.sin r0 * R 2 0 - Real.cos r0 * R 1 0)
      (Real.cos r0 * R 1 1 - Real.sin r0 * R 2 1)
    rwa [e2, one_mul] at this
  have cof : ∀ i j, R.adjugate i j = R j i := by intro i j; rw [adj]; rfl
  have c00 := cof 0 0
  have c10 := cof 1 0
  have c01 := cof 0 1
  have c11 := cof 1 1
  have c02 := cof 0 2
  have c12 := cof 1 2
  simp [adjugate_fin_three] at c00 c10 c01 c11 c02 c12
  rw [rot3_xyz]
  ext i j
  fin_cases i <;> fin_cases j <;>
    simp only [Real.cos_neg, Real.sin_neg, k1, s1, k2, s2] <;>
    simp
  · linear_combination R 1 1 * k0 - R 2 1 * s0 + c00
  · linear_combination R 2 0 * s0 - R 1 0 * k0 + c10
  · linear_combination R 1 0 * cs + Real.sin r0 ^ 2 * c01 + Real.cos r0 * Real.sin r0 * c02
      - Real.sin r0 * R 0 1 * zero
  · linear_combination R 1 1 * cs + Real.sin r0 ^ 2 * c11 + Real.cos r0 * Real.sin r0 * c12
      + Real.sin r0 * R 0 0 * zero
  · linear_combination s0
  · linear_combination R 2 0 * cs + Real.cos r0 * Real.sin r0 * c01 + Real.cos r0 ^ 2 * c02
      - Real.cos r0 * R 0 1 * zero
  · linear_combination R 2 1 * cs + Real.cos r0 * Real.sin r0 * c11 + Real.cos r0 ^ 2 * c12
      + Real.cos r0 * R 0 0 * zero
  · linear_combination k0

/-! ## C62: Euler angles and quaternions -/

/-- **C62.** The orientation matrix of a body or rod is a proper rotation, whatever the norm of
its quaternion (it must not be null). -/
theorem C62_orMat_rotation (q : Quat ℝ) (h : 0 < q.normSq) :
    orMat q ∈ Matrix.specialOrthogonalGroup (Fin 3) ℝ :=
  mem_SO3 (toMat_mul_transpose _ (normSq_normalized q h)) (toMat_det _ (normSq_normalized q h))

/-- **C62.** The orientation given by three angles in the input (roll, pitch, yaw) is
`RotX(roll) RotY(pitch) RotZ(yaw)`. -/
theorem C62_input_angles (a : V3 ℝ) :
    orMat (euler2Quat a) = rot3 .X .Y .Z (a 0) (a 1) (a 2) := euler2Quat_orMat a

/-- **C62.** The angles reported for an orientation reproduce it, for all orientations, including
those with a pitch of 90 degrees. -/
theorem C62_reported_angles (q : Quat ℝ) (h : 0 < q.normSq) :
    rot3 .X .Y .Z (quat2Euler q 0) (quat2Euler q 1) (quat2Euler q 2) = orMat q := by
  have hn := normSq_normalized q h
  have := euler_of_rotation q.normalized.toMat (toMat_mul_transpose _ hn) (toMat_det _ hn)
  rw [orMat, ← this]
  simp [quat2Euler, canonicalEulerAngles]

/-- **C62.** Converting the reported angles again gives the same orientation matrix. -/
theorem C62_roundtrip_orientation (q : Quat ℝ) (h : 0 < q.normSq) :
    orMat (euler2Quat (quat2Euler q)) = orMat q := by
  rw [C62_input_angles, C62_reported_angles q h]

/-- **C62.** The pitch reported is between -90 and 90 degrees, roll and yaw between -180 and
180. -/
theorem C62_range (q : Quat ℝ) :
    |quat2Euler q 1| ≤ Real.pi / 2 ∧ |quat2Euler q 0| ≤ Real.pi ∧ |quat2Euler q 2| ≤ Real.pi := by
  refine ⟨?_, ?_, ?_⟩
  · simp only [quat2Euler, canonicalEulerAngles, atan2]
    simp
  · simp only [quat2Euler, canonicalEulerAngles, atan2]
    simpa using Complex.abs_arg_le_pi _
  · simp only [quat2Euler, canonicalEulerAngles, atan2]
    simpa using Complex.abs_arg_le_pi _

/-- **C62.** The angles given in the input are the ones reported, when the pitch is between -90
and 90 degrees and roll and yaw are in [-180, 180). -/
theorem C62_roundtrip_angles (a : V3 ℝ)
    (h0 : -Real.pi ≤ a 0 ∧ a 0 < Real.pi)
    (h1 : -(Real.pi / 2) < a 1 ∧ a 1 < Real.pi / 2)
    (h2 : -Real.pi ≤ a 2 ∧ a 2 < Real.pi) :
    quat2Euler (euler2Quat a) = a := by
  have hb : 0 < Real.cos (a 1) := Real.cos_pos_of_mem_Ioo h1
  have hR : (euler2Quat a).normalized.toMat = rot3 .X .Y .Z (a 0) (a 1) (a 2) := C62_input_angles a
  have e0 : atan2 (-(Real.sin (a 0) * Real.cos (a 1))) (Real.cos (a 0) * Real.cos (a 1)) =
      -a 0 := by
    rw [← atan2_polar (Real.cos (a 1)) (-a 0) hb ⟨by linarith, by linarith⟩, Real.sin_neg,
      Real.cos_neg]
    congr 1 <;> ring
  have e1 : Real.sqrt ((Real.cos (a 1) * Real.cos (a 2)) ^ 2 +
      (Real.cos (a 1) * Real.sin (a 2)) ^ 2) = Real.cos (a 1) := by
    have : (Real.cos (a 1) * Real.cos (a 2)) ^ 2 + (Real.cos (a 1) * Real.sin (a 2)) ^ 2 =
        Real.cos (a 1) ^ 2 := by
      linear_combination Real.cos (a 1) ^ 2 * Real.cos_sq_add_sin_sq (a 2)
    rw [this, Real.sqrt_sq hb.le]
  have e1' : atan2 (-Real.sin (a 1)) (Real.cos (a 1)) = -a 1 := by
    have := atan2_polar 1 (-a 1) one_pos ⟨by linarith [Real.pi_pos], by linarith [Real.pi_pos]⟩
    rwa [one_mul, one_mul, Real.sin_neg, Real.cos_neg] at this
  have e2 : atan2 (-Real.sin (a 2)) (Real.cos (a 2)) = -a 2 := by
    have := atan2_polar 1 (-a 2) one_pos ⟨by linarith, by linarith⟩
    rwa [one_mul, one_mul, Real.sin_neg, Real.cos_neg] at this
  have cs := Real.cos_sq_add_sin_sq (a 0)
  have hx : Real.sin (-a 0) * (Real.sin (a 0) * Real.sin (a 2) -
        Real.cos (a 0) * Real.sin (a 1) * Real.cos (a 2)) -
      Real.cos (-a 0) * (Real.cos (a 0) * Real.sin (a 2) +
        Real.sin (a 0) * Real.sin (a 1) * Real.cos (a 2)) = -Real.sin (a 2) := by
    rw [Real.sin_neg, Real.cos_neg]
    linear_combination -Real.sin (a 2) * cs
  have hy : Real.cos (-a 0) * (Real.cos (a 0) * Real.cos (a 2) -
        Real.sin (a 0) * Real.sin (a 1) * Real.sin (a 2)) -
      Real.sin (-a 0) * (Real.sin (a 0) * Real.cos (a 2) +
        Real.cos (a 0) * Real.sin (a 1) * Real.sin (a 2)) = Real.cos (a 2) := by
    rw [Real.sin_neg, Real.cos_neg]
    linear_combination Real.cos (a 2) * cs
  have key : quat2Euler (euler2Quat a) = -![-a 0, -a 1, -a 2] := by
    simp only [quat2Euler, canonicalEulerAngles, hR, rot3_xyz]
    simp [-neg_mul, -Real.cos_neg, -Real.sin_neg]
    simp only [e0, e1, e1', hx, hy, e2]
    simp
  rw [key]
  funext i
  fin_cases i <;> simp

/-- **C62**: beyond that range other angles are reported for the same orientation: a pitch of 180
degrees is reported as (180, 0, 180) up to sign. -/
theorem C62_other_angles : quat2Euler (euler2Quat ![0, Real.pi, 0]) 1 ≠ Real.pi := by
  intro h
  have := (C62_range (euler2Quat ![0, Real.pi, 0])).1
  rw [h, abs_of_pos Real.pi_pos] at this
  linarith [Real.pi_pos]

example : (0 : ℝ) < (⟨1, 2, 3, 4⟩ : Quat ℝ).normSq := by norm_num [Quat.normSq]

/-- a pitch of 90 degrees (gimbal lock): `C62_reported_angles` applies -/
example : 0 < (euler2Quat ![0.3, Real.pi / 2, 0.2]).normSq := by
  rw [euler2Quat_normSq]; exact one_pos

/-! ## C42: rate of the orientation -/

/-- The quaternion `q` evolves with the rates that the code gives it, with angular velocity `w`. -/
def Evolves (w : ℝ → V3 ℝ) (q : ℝ → Quat ℝ) : Prop :=
  ∀ t, HasDerivAt (fun s => (q s).w) (quatRate (w t) (q t)).w t ∧
    HasDerivAt (fun s => (q s).x) (quatRate (w t) (q t)).x t ∧
    HasDerivAt (fun s => (q s).y) (quatRate (w t) (q t)).y t ∧
    HasDerivAt (fun s => (q s).z) (quatRate (w t) (q t)).z t

theorem der {f g : ℝ → ℝ} {f' g' x : ℝ} (h : HasDerivAt f f' x) (hf : ∀ y, g y = f y)
    (hd : g' = f') : HasDerivAt g g' x := by
  have : g = f := funext hf
  rw [this, hd]; exact h

/-- **C42.** The rate is orthogonal to the quaternion. -/
theorem C42_orthogonal (w : V3 ℝ) (q : Quat ℝ) :
    let d := quatRate w q
    d.w * q.w + d.x * q.x + d.y * q.y + d.z * q.z = 0 := by
  simp only [quatRate, Quat.smul, Quat.mul]; ring

/-- **C42.** Following the rate, the norm of the quaternion does not change at all. -/
theorem C42_norm_constant (w : ℝ → V3 ℝ) (q : ℝ → Quat ℝ) (h : Evolves w q) (t t' : ℝ) :
    (q t).normSq = (q t').normSq := by
  have hd : ∀ t, HasDerivAt (fun s => (q s).normSq) 0 t := by
    intro t
    obtain ⟨hw, hx, hy, hz⟩ := h t
    refine der ((((hw.mul hw).add (hx.mul hx)).add (hy.mul hy)).add (hz.mul hz)) ?_ ?_
    · intro y; simp [Quat.normSq]
    · simp only [quatRate, Quat.smul, Quat.mul]; ring
  exact is_const_of_deriv_eq_zero (fun t => (hd t).differentiableAt) (fun t => (hd t).deriv) t t'

/-- Orientation matrix for a unit quaternion: entries derive to those of `w ×` -/
theorem toMat_deriv (w : V3 ℝ) (q : ℝ → Quat ℝ) (t : ℝ) (hn : (q t).normSq = 1)
    (hw : HasDerivAt (fun s => (q s).w) (quatRate w (q t)).w t)
    (hx : HasDerivAt (fun s => (q s).x) (quatRate w (q t)).x t)
    (hy : HasDerivAt (fun s => (q s).y) (quatRate w (q t)).y t)
    (hz : HasDerivAt (fun s => (q s).z) (quatRate w (q t)).z t) (u : V3 ℝ) :
    HasDerivAt (fun s => (q s).toMat *ᵥ u) (w ⨯₃ ((q t).toMat *ᵥ u)) t := by
  rw [hasDerivAt_pi]
  simp only [Quat.normSq] at hn
  have c1 := hasDerivAt_const t (1 : ℝ)
  intro i
  fin_cases i
  · refine der ((((c1.sub (((hy.mul hy).add (hz.mul hz)).const_mul 2)).mul_const (u 0)).add
      ((((hx.mul hy).sub (hw.mul hz)).const_mul 2).mul_const (u 1))).add
      ((((hx.mul hz).add (hw.mul hy)).const_mul 2).mul_const (u 2))) ?_ ?_
    · intro s
      simp [Quat.toMat, Matrix.mulVec, dotProduct, Fin.sum_univ_three]; ring
    · simp [Quat.toMat, Matrix.mulVec, dotProduct, Fin.sum_univ_three, cross_apply, quatRate,
        Quat.smul, Quat.mul]
      grobner
  · refine der ((((((hx.mul hy).add (hw.mul hz)).const_mul 2).mul_const (u 0)).add
      ((c1.sub (((hx.mul hx).add (hz.mul hz)).const_mul 2)).mul_const (u 1))).add
      ((((hy.mul hz).sub (hw.mul hx)).const_mul 2).mul_const (u 2))) ?_ ?_
    · intro s
      simp [Quat.toMat, Matrix.mulVec, dotProduct, Fin.sum_univ_three]; ring
    · simp [Quat.toMat, Matrix.mulVec, dotProduct, Fin.sum_univ_three, cross_apply, quatRate,
        Quat.smul, Quat.mul]
      grobner
  · refine der ((((((hx.mul hz).sub (hw.mul hy)).const_mul 2).mul_const (u 0)).add
      ((((hy.mul hz).add (hw.mul hx)).const_mul 2).mul_const (u 1))).add
      ((c1.sub (((hx.mul hx).add (hy.mul hy)).const_mul 2)).mul_const (u 2))) ?_ ?_
    · intro s
      simp [Quat.toMat, Matrix.mulVec, dotProduct, Fin.sum_univ_three]; ring
    · simp [Quat.toMat, Matrix.mulVec, dotProduct, Fin.sum_univ_three, cross_apply, quatRate,
        Quat.smul, Quat.mul]
      grobner

/-- **C42.** Following the rate, every vector `u` fixed to the body rotates with the angular
velocity `w` in the global frame: `d(R u)/dt = w × (R u)`; the quaternion may have any norm. -/
theorem C42_angular_velocity (w : ℝ → V3 ℝ) (q : ℝ → Quat ℝ) (h : Evolves w q)
    (h0 : 0 < (q 0).normSq) (u : V3 ℝ) (t : ℝ) :
    HasDerivAt (fun s => orMat (q s) *ᵥ u) (w t ⨯₃ (orMat (q t) *ᵥ u)) t := by
  have hc := fun s => C42_norm_constant w q h s 0
  have hn : ∀ s, (q s).normalized = (q s).smul (1 / Real.sqrt (q 0).normSq) := by
    intro s; rw [Quat.normalized, hc s, if_pos h0]
  set c := 1 / Real.sqrt (q 0).normSq with hcdef
  have h1 := normSq_normalized (q t) (by rw [hc t]; exact h0)
  obtain ⟨hw, hx, hy, hz⟩ := h t
  have key := toMat_deriv (w t) (fun s => (q s).smul c) t (by rw [← hn]; exact h1)
    (der (hw.const_mul c) (fun _ => rfl) (by simp [quatRate, Quat.smul, Quat.mul]; ring))
    (der (hx.const_mul c) (fun _ => rfl) (by simp [quatRate, Quat.smul, Quat.mul]; ring))
    (der (hy.const_mul c) (fun _ => rfl) (by simp [quatRate, Quat.smul, Quat.mul]; ring))
    (der (hz.const_mul c) (fun _ => rfl) (by simp [quatRate, Quat.smul, Quat.mul]; ring)) u
  have e : ∀ s, orMat (q s) = ((q s).smul c).toMat := by intro s; rw [orMat, hn s]
  simpa only [e] using key

/-- **C42.** What a finite step does: an explicit step of length `h` multiplies the squared norm
by `1 + h²|w|²/4`, so that it never decreases. -/
theorem C42_euler_step (w : V3 ℝ) (q : Quat ℝ) (h : ℝ) :
    (q.add ((quatRate w q).smul h)).normSq = (1 + h ^ 2 * (w ⬝ᵥ w) / 4) * q.normSq := by
  simp [Quat.add, quatRate, Quat.smul, Quat.mul, Quat.normSq, dotProduct, Fin.sum_univ_three]
  ring

/-- **C42.** The drift of the norm has no effect: orientation and (relative) rate are the same for
a quaternion of any norm. -/
theorem C42_norm_irrelevant (w : V3 ℝ) (q : Quat ℝ) (c : ℝ) (hc : 0 < c) :
    orMat (q.smul c) = orMat q ∧ quatRate w (q.smul c) = (quatRate w q).smul c := by
  constructor
  · have hs : (q.smul c).normalized = q.normalized := by
      rw [Quat.normalized, Quat.normalized, normSq_smul]
      by_cases h : 0 < q.normSq
      · rw [if_pos h, if_pos (by positivity), Real.sqrt_mul (by positivity), Real.sqrt_sq hc.le]
        have := (Real.sqrt_pos.2 h).ne'
        ext <;> simp [Quat.smul] <;> field_simp
      · have h0 : q.normSq = 0 := le_antisymm (not_lt.1 h) (normSq_nonneg q)
        have hz : q.w = 0 ∧ q.x = 0 ∧ q.y = 0 ∧ q.z = 0 := by
          simp only [Quat.normSq] at h0
          refine ⟨?_, ?_, ?_, ?_⟩ <;> nlinarith [mul_self_nonneg q.w, mul_self_nonneg q.x,
            mul_self_nonneg q.y, mul_self_nonneg q.z]
        rw [if_neg h, if_neg (by rw [h0]; simp)]
        ext <;> simp [Quat.smul, hz]
    rw [orMat, orMat, hs]
  · ext <;> simp [quatRate, Quat.smul, Quat.mul] <;> ring

/-- **C42 does not hold for zero-length free rods**: the rate given is the identity quaternion,
not a null rate, whatever the angular velocity, so that the norm of the state grows. -/
theorem C42_zero_length_rod_false (w : V3 ℝ) (h : ℝ) (hh : 0 < h) :
    let d := rodQuatRate 0 w Quat.one
    d.w * (Quat.one : Quat ℝ).w + d.x * (Quat.one : Quat ℝ).x + d.y * (Quat.one : Quat ℝ).y +
        d.z * (Quat.one : Quat ℝ).z ≠ 0 ∧
      (Quat.one : Quat ℝ).normSq < (Quat.add Quat.one (d.smul h)).normSq := by
  constructor
  · simp [rodQuatRate, Quat.one]
  · simp [rodQuatRate, Quat.one, Quat.add, Quat.smul, Quat.normSq]
    nlinarith

/-- rods with segments do have the right rate -/
theorem C42_rod (N : ℕ) (hN : 0 < N) (w : V3 ℝ) (q : Quat ℝ) :
    rodQuatRate N w q = quatRate w q := if_neg (by omega)

/-- A motion satisfying the hypotheses: steady rotation around z with angular velocity 2. -/
example : Evolves (fun _ => ![0, 0, 2]) (fun t => ⟨Real.cos t, 0, 0, Real.sin t⟩) := by
  intro t
  refine ⟨?_, ?_, ?_, ?_⟩
  · exact der (Real.hasDerivAt_cos t) (fun _ => rfl) (by simp [quatRate, Quat.smul, Quat.mul])
  · exact der (hasDerivAt_const t 0) (fun _ => rfl) (by simp [quatRate, Quat.smul, Quat.mul])
  · exact der (hasDerivAt_const t 0) (fun _ => rfl) (by simp [quatRate, Quat.smul, Quat.mul])
  · exact der (Real.hasDerivAt_sin t) (fun _ => rfl) (by simp [quatRate, Quat.smul, Quat.mul])

/-! ## C63: fairleads of coupled bodies -/

/-- The full claim of **C63**: the velocity given to a point of a coupled body is the rate of
change of the position given to it. -/
def VelocityIsRate : Prop :=
  ∀ (bc : BC) (rRel : V3 ℝ) (t : ℝ),
    HasDerivAt (fun s => (coupledBodyPoint bc rRel s).1) (coupledBodyPoint bc rRel t).2 t

/-- The angular velocity of a frame whose angles change with rates `d` -/
noncomputable def trueOmega (a d : V3 ℝ) : V3 ℝ :=
  d 0 • ![1, 0, 0] + d 1 • (rot .X (a 0) *ᵥ ![0, 1, 0]) +
    d 2 • (rot .X (a 0) *ᵥ (rot .Y (a 1) *ᵥ ![0, 0, 1]))

theorem trueOmega_eq (a d : V3 ℝ) : trueOmega a d =
    ![d 0 + d 2 * Real.sin (a 1),
      d 1 * Real.cos (a 0) - d 2 * Real.sin (a 0) * Real.cos (a 1),
      d 1 * Real.sin (a 0) + d 2 * Real.cos (a 0) * Real.cos (a 1)] := by
  funext i
  simp only [trueOmega, Pi.add_apply, Pi.smul_apply, Matrix.mulVec, dotProduct,
    Fin.sum_univ_three]
  fin_cases i <;> simp [rot, rotX, rotY] <;> ring

/-- **C63.** What the rate of change of the position really is: that of the rigid motion with the
angular velocity corresponding to the rates of the angles. -/
theorem C63_rate (bc : BC) (rRel : V3 ℝ) (t : ℝ) :
    HasDerivAt (fun s => (coupledBodyPoint bc rRel s).1)
      (bc.rd + trueOmega (bc.ang + t • bc.angd) bc.angd ⨯₃
        ((coupledBodyPoint bc rRel t).1 - (bc.r + t • bc.rd))) t := by
  have lin : ∀ k, HasDerivAt (fun s : ℝ => (bc.ang + s • bc.angd) k) (bc.angd k) t := by
    intro k
    exact der (((hasDerivAt_id t).mul_const (bc.angd k)).const_add (bc.ang k))
      (fun s => by simp) (by simp)
  have linr : ∀ k, HasDerivAt (fun s : ℝ => (bc.r + s • bc.rd) k) (bc.rd k) t := by
    intro k
    exact der (((hasDerivAt_id t).mul_const (bc.rd k)).const_add (bc.r k))
      (fun s => by simp) (by simp)
  have ca := (lin 0).cos
  have sa := (lin 0).sin
  have cb := (lin 1).cos
  have sb := (lin 1).sin
  have cc := (lin 2).cos
  have sc := (lin 2).sin
  have tr := Real.cos_sq_add_sin_sq ((bc.ang + t • bc.angd) 0)
  have tr1 := Real.cos_sq_add_sin_sq ((bc.ang + t • bc.angd) 1)
  simp only [coupledBodyPoint, transformKinematics, euler2Quat_orMat, rot3_xyz, trueOmega_eq]
  generalize hA : (bc.ang + t • bc.angd) 0 = A at *
  generalize hB : (bc.ang + t • bc.angd) 1 = B at *
  generalize hC : (bc.ang + t • bc.angd) 2 = C at *
  have hA' : bc.ang 0 + t * bc.angd 0 = A := by simpa using hA
  have hB' : bc.ang 1 + t * bc.angd 1 = B := by simpa using hB
  have hC' : bc.ang 2 + t * bc.angd 2 = C := by simpa using hC
  rw [hasDerivAt_pi]
  intro i
  fin_cases i
  · refine der (((((cb.mul cc).mul_const (rRel 0)).sub ((cb.mul sc).mul_const (rRel 1))).add
      (sb.mul_const (rRel 2))).add (linr 0)) ?_ ?_
    · intro s
      simp [Matrix.mulVec, dotProduct, Fin.sum_univ_three]; ring
    · simp only [hA, hB, hC]
      simp [Matrix.mulVec, dotProduct, Fin.sum_univ_three, cross_apply, hA', hB', hC']
      clear lin linr ca sa cb sb cc sc hA hB hC hA' hB' hC'
      grobner
  · refine der ((((((ca.mul sc).add ((sa.mul sb).mul cc)).mul_const (rRel 0)).add
      (((ca.mul cc).sub ((sa.mul sb).mul sc)).mul_const (rRel 1))).sub
      ((sa.mul cb).mul_const (rRel 2))).add (linr 1)) ?_ ?_
    · intro s
      simp [Matrix.mulVec, dotProduct, Fin.sum_univ_three]; ring
    · simp only [hA, hB, hC]
      simp [Matrix.mulVec, dotProduct, Fin.sum_univ_three, cross_apply, hA', hB', hC']
      clear lin linr ca sa cb sb cc sc hA hB hC hA' hB' hC'
      grobner
  · refine der ((((((sa.mul sc).sub ((ca.mul sb).mul cc)).mul_const (rRel 0)).add
      (((sa.mul cc).add ((ca.mul sb).mul sc)).mul_const (rRel 1))).add
      ((ca.mul cb).mul_const (rRel 2))).add (linr 2)) ?_ ?_
    · intro s
      simp [Matrix.mulVec, dotProduct, Fin.sum_univ_three]
    · simp only [hA, hB, hC]
      simp [Matrix.mulVec, dotProduct, Fin.sum_univ_three, cross_apply, hA', hB', hC']
      clear lin linr ca sa cb sb cc sc hA hB hC hA' hB' hC'
      grobner

/-- **C63 does not hold**: the rates of the three angles are taken as angular velocity. Witness: a
body pitched 90 degrees and yawing; its fairlead at (0,1,0) moves along z, but is given a
velocity along x. -/
theorem C63_false : ¬ VelocityIsRate := by
  intro h
  let bc : BC := ⟨0, ![0, Real.pi / 2, 0], 0, ![0, 0, 1]⟩
  have h1 := h bc ![0, 1, 0] 0
  have h2 := C63_rate bc ![0, 1, 0] 0
  have := congrFun (h1.unique h2) 0
  simp [bc, coupledBodyPoint, transformKinematics, euler2Quat_orMat, rot3_xyz, trueOmega_eq,
    Matrix.mulVec, dotProduct, Fin.sum_univ_three, cross_apply] at this

/-- **C63**, when it holds: whenever the angular velocity of the frame is the rate of the
angles. -/
theorem C63_partial (bc : BC) (rRel : V3 ℝ) (t : ℝ)
    (hw : trueOmega (bc.ang + t • bc.angd) bc.angd = bc.angd) :
    HasDerivAt (fun s => (coupledBodyPoint bc rRel s).1) (coupledBodyPoint bc rRel t).2 t := by
  have := C63_rate bc rRel t
  rw [hw] at this
  have e : (coupledBodyPoint bc rRel t).2 =
      bc.rd + bc.angd ⨯₃ ((coupledBodyPoint bc rRel t).1 - (bc.r + t • bc.rd)) := by
    simp [coupledBodyPoint, transformKinematics]
  rw [e]; exact this

/-- **C63**: in particular for bodies that translate, or only roll, or only pitch without roll, or
only yaw with neither roll nor pitch. -/
theorem C63_single_axis_partial (bc : BC) (rRel : V3 ℝ) (t : ℝ)
    (h : (bc.angd 1 = 0 ∧ bc.angd 2 = 0) ∨
      (bc.ang 0 = 0 ∧ bc.angd 0 = 0 ∧ bc.angd 2 = 0) ∨
      (bc.ang 0 = 0 ∧ bc.angd 0 = 0 ∧ bc.ang 1 = 0 ∧ bc.angd 1 = 0)) :
    HasDerivAt (fun s => (coupledBodyPoint bc rRel s).1) (coupledBodyPoint bc rRel t).2 t := by
  apply C63_partial
  rw [trueOmega_eq]
  funext i
  rcases h with ⟨h1, h2⟩ | ⟨h1, h2, h3⟩ | ⟨h1, h2, h3, h4⟩ <;>
    fin_cases i <;> simp [*]

/-- **C63.** Whatever the rates are, the velocities given to the points of a body are those of one
rigid motion: the distance between any two of them has no rate of change. -/
theorem C63_rigid (bc : BC) (r1 r2 : V3 ℝ) (t : ℝ) :
    ((coupledBodyPoint bc r1 t).1 - (coupledBodyPoint bc r2 t).1) ⬝ᵥ
      ((coupledBodyPoint bc r1 t).2 - (coupledBodyPoint bc r2 t).2) = 0 := by
  simp only [coupledBodyPoint, transformKinematics]
  generalize orMat _ *ᵥ r1 = a
  generalize orMat _ *ᵥ r2 = b
  simp [dotProduct, Fin.sum_univ_three, cross_apply]
  ring

example : trueOmega ((⟨0, ![0, 0.5, 0.1], 0, ![0.1, 0, 0]⟩ : BC).ang) ![0.1, 0, 0] = ![0.1, 0, 0] := by
  rw [trueOmega_eq]; funext i; fin_cases i <;> simp

end MD.Rot
