import Verif.Model.Matrix
import Mathlib.Data.Matrix.ColumnRowPartitioned
import Mathlib.Tactic.Ring
import Mathlib.Tactic.LinearCombination
import Mathlib.Tactic.FinCases
import Mathlib.Tactic.NormNum
import Mathlib.Tactic.NoncommRing

/-!
# Properties C27, C28 and C54: mass matrices and rotations
-/

set_option linter.unusedSimpArgs false
set_option linter.unusedSectionVars false

namespace MD.Mat

open Matrix

variable {K : Type} [CommRing K]

/-! ## Specification -/

/-- Twice the kinetic energy of something with mass matrix `M` whose reference point moves with
velocity `v` and which rotates with angular velocity `w`. -/
def energy2 (M : M6 K) (v w : V3 K) : K := Sum.elim v w ⬝ᵥ (M *ᵥ Sum.elim v w)

/-- Velocity of the point at the offset `r` of a rigid motion (Poinsot). -/
def pointVel (v w r : V3 K) : V3 K := v + w ⨯₃ r

/-- Momentum (linear and angular about the reference point) -/
def momentum (M : M6 K) (v w : V3 K) : V6 K := M *ᵥ Sum.elim v w

/-! ## Lemmas -/

theorem getH_mulVec (r a : V3 K) : getH r *ᵥ a = a ⨯₃ r := by
  funext i
  fin_cases i <;> simp [getH, Matrix.mulVec, dotProduct, Fin.sum_univ_three, cross_apply] <;> ring

theorem getH_transpose (r : V3 K) : (getH r)ᵀ = -getH r := by
  ext i j; fin_cases i <;> fin_cases j <;> simp [getH]

theorem getH_add (r s : V3 K) : getH (r + s) = getH r + getH s := by
  ext i j; fin_cases i <;> fin_cases j <;> simp [getH] <;> ring

theorem getH_neg (r : V3 K) : getH (-r) = -getH r := by
  ext i j; fin_cases i <;> fin_cases j <;> simp [getH]

theorem getH_zero : getH (0 : V3 K) = 0 := by
  ext i j; fin_cases i <;> fin_cases j <;> simp [getH]

/-- Change of reference point, as a 6x6 matrix -/
def shift (r : V3 K) : M6 K := fromBlocks 1 (getH r) 0 1

theorem shift_mulVec (r v w : V3 K) :
    shift r *ᵥ Sum.elim v w = Sum.elim (pointVel v w r) w := by
  simp [shift, fromBlocks_mulVec, getH_mulVec, pointVel]

theorem translateMass6_eq (r : V3 K) (M : M6 K) (hM : M.IsSymm) :
    translateMass6 r M = (shift r)ᵀ * M * shift r := by
  have h21 : M.toBlocks₂₁ = M.toBlocks₁₂ᵀ := by
    ext i j; exact (hM.apply _ _).symm
  have h11 : M.toBlocks₁₁ᵀ = M.toBlocks₁₁ := by
    ext i j; exact hM.apply _ _
  conv_rhs => rw [← fromBlocks_toBlocks M]
  rw [translateMass6, shift, fromBlocks_transpose, fromBlocks_multiply, fromBlocks_multiply]
  simp only [h21, getH_transpose, transpose_one, transpose_zero, transpose_add, transpose_mul, h11]
  congr 1 <;> noncomm_ring

theorem translateMass_eq6 (r : V3 K) (m : M3 K) :
    translateMass r m = translateMass6 r (fromBlocks m 0 0 0) := by
  simp [translateMass, translateMass6]

/-! ## C27 -/

/-- **C27.** The mass matrix moved to another reference point, `r` being the old one as seen from
the new one, gives the same kinetic energy for the same rigid motion: the old reference point
moves with the velocity of the point of the body at `r`. -/
theorem C27_energy (r : V3 K) (M : M6 K) (hM : M.IsSymm) (v w : V3 K) :
    energy2 (translateMass6 r M) v w = energy2 M (pointVel v w r) w := by
  rw [energy2, energy2, translateMass6_eq r M hM, ← shift_mulVec, ← mulVec_mulVec,
    ← mulVec_mulVec, dotProduct_mulVec, vecMul_transpose]

/-- **C27**, for a point-like mass matrix (`translateMass`). -/
theorem C27_energy_point (r : V3 K) (m : M3 K) (hm : m.IsSymm) (v w : V3 K) :
    energy2 (translateMass r m) v w = pointVel v w r ⬝ᵥ (m *ᵥ pointVel v w r) := by
  have hs : (fromBlocks m 0 0 0 : M6 K).IsSymm := by
    rw [IsSymm, fromBlocks_transpose, hm]; simp
  rw [translateMass_eq6, C27_energy r _ hs, energy2]
  simp [fromBlocks_mulVec]

/-- **C27.** The linear momentum is the same, and the angular momentum is transported by the
offset: `L' = L + r × p`. -/
theorem C27_momentum (r : V3 K) (M : M6 K) (hM : M.IsSymm) (v w : V3 K) :
    momentum (translateMass6 r M) v w =
      Sum.elim (fun i => momentum M (pointVel v w r) w (.inl i))
        ((fun i => momentum M (pointVel v w r) w (.inr i)) +
          r ⨯₃ (fun i => momentum M (pointVel v w r) w (.inl i))) := by
  rw [momentum, momentum, translateMass6_eq r M hM, ← shift_mulVec, ← mulVec_mulVec,
    ← mulVec_mulVec]
  generalize M *ᵥ (shift r *ᵥ Sum.elim v w) = x
  conv_lhs => rw [← Sum.elim_comp_inl_inr x]
  rw [shift, fromBlocks_transpose, fromBlocks_mulVec, getH_transpose]
  have hx : (-getH r) *ᵥ (x ∘ Sum.inl) = r ⨯₃ (fun i => x (.inl i)) := by
    rw [neg_mulVec, getH_mulVec, ← cross_anticomm, neg_neg]; rfl
  simp only [transpose_one, transpose_zero, one_mulVec, zero_mulVec, add_zero, Sum.elim_comp_inl,
    Sum.elim_comp_inr, hx]
  rw [add_comm]; rfl

/-- **C27.** Symmetry is kept. -/
theorem C27_symmetric (r : V3 K) (M : M6 K) (hM : M.IsSymm) : (translateMass6 r M).IsSymm := by
  rw [translateMass6_eq r M hM, IsSymm, transpose_mul, transpose_mul, transpose_transpose, hM,
    Matrix.mul_assoc]

theorem shift_mul (r s : V3 K) : shift r * shift s = shift (s + r) := by
  simp [shift, fromBlocks_multiply, getH_add]

/-- **C27.** Moving the reference point twice is moving it once by the sum. -/
theorem C27_compose (r s : V3 K) (M : M6 K) (hM : M.IsSymm) :
    translateMass6 s (translateMass6 r M) = translateMass6 (r + s) M := by
  rw [translateMass6_eq s _ (C27_symmetric r M hM), translateMass6_eq r M hM,
    translateMass6_eq _ M hM, add_comm r s, ← shift_mul, transpose_mul]
  simp only [Matrix.mul_assoc]

/-- **C27.** Moving it back recovers the mass matrix. -/
theorem C27_back (r : V3 K) (M : M6 K) (hM : M.IsSymm) :
    translateMass6 (-r) (translateMass6 r M) = M := by
  rw [C27_compose r (-r) M hM, add_neg_cancel, translateMass6_eq _ M hM]
  simp [shift, getH_zero, fromBlocks_one]

/-- **C27.** Translating a 3x3 mass and moving the result is moving by the sum, so attachments of
attachments (rods and points on bodies) are placed consistently. -/
theorem C27_compose_point (r s : V3 K) (m : M3 K) (hm : m.IsSymm) :
    translateMass6 s (translateMass r m) = translateMass (r + s) m := by
  have hs : (fromBlocks m 0 0 0 : M6 K).IsSymm := by
    rw [IsSymm, fromBlocks_transpose, hm]; simp
  rw [translateMass_eq6, translateMass_eq6, C27_compose r s _ hs]

/-- **C27**: the parallel axis theorem. A mass `μ` at the offset `r` has, around the reference
point, the inertia `μ (|r|² w² - (r·w)²)` along each `w`. -/
theorem C27_steiner (r w : V3 K) (μ : K) :
    energy2 (translateMass r (μ • (1 : M3 K))) 0 w =
      μ * ((r ⬝ᵥ r) * (w ⬝ᵥ w) - (r ⬝ᵥ w) ^ 2) := by
  rw [C27_energy_point r _ (by simp [IsSymm]) 0 w]
  simp [pointVel, dotProduct, Fin.sum_univ_three, cross_apply, smul_mulVec]
  ring

/-- The symmetry of the input is needed: the lower left block is not read by the function. -/
theorem C27_energy_needs_symmetry :
    ∃ (M : M6 ℚ) (r v w : V3 ℚ),
      energy2 (translateMass6 r M) v w ≠ energy2 M (pointVel v w r) w := by
  refine ⟨fromBlocks 0 0 1 0, 0, ![1, 0, 0], ![1, 0, 0], ?_⟩
  simp [energy2, translateMass6, pointVel, fromBlocks_mulVec, getH_zero, dotProduct,
    Fin.sum_univ_three]

/-- A mass matrix with a nonzero product of inertia, moved: the energy is not trivially zero. -/
example : energy2 (translateMass (![0, 0, 2] : V3 ℚ) (3 • 1)) ![1, 0, 0] ![0, 1, 0] = 27 := by
  rw [C27_energy_point _ _ (by simp [IsSymm])]
  simp [pointVel, dotProduct, Fin.sum_univ_three, cross_apply, smul_mulVec]
  norm_num

example : (fromBlocks 1 (getH ![1, 2, 3]) (getH ![1, 2, 3])ᵀ 1 : M6 ℚ).IsSymm := by
  rw [IsSymm, fromBlocks_transpose]; simp

/-! ## C28 -/

theorem rot_mem (p : Axis) (a : ℝ) : rot p a ∈ Matrix.specialOrthogonalGroup (Fin 3) ℝ := by
  have h := Real.cos_sq_add_sin_sq a
  rw [mem_specialOrthogonalGroup_iff, mem_orthogonalGroup_iff]
  constructor
  · ext i j
    cases p <;> fin_cases i <;> fin_cases j <;>
      simp [rot, rotX, rotY, rotZ, Matrix.mul_apply, Fin.sum_univ_three, star_eq_conjTranspose] <;>
      first | linear_combination h | ring
  · cases p <;> simp [rot, rotX, rotY, rotZ, Matrix.det_fin_three] <;> linear_combination h

/-- **C28.** The matrix built from any three angles, for any of the Euler conventions provided,
is orthogonal with determinant one. -/
theorem C28_rotation (p q s : Axis) (a1 a2 a3 : ℝ) :
    rot3 p q s a1 a2 a3 ∈ Matrix.specialOrthogonalGroup (Fin 3) ℝ :=
  Submonoid.mul_mem _ (Submonoid.mul_mem _ (rot_mem p a1) (rot_mem q a2)) (rot_mem s a3)

theorem orth_left {R : M3 ℝ} (h : R ∈ Matrix.specialOrthogonalGroup (Fin 3) ℝ) : Rᵀ * R = 1 := by
  have := (mem_orthogonalGroup_iff' (Fin 3) ℝ).1 (mem_specialOrthogonalGroup_iff.1 h).1
  simpa [star_eq_conjTranspose] using this

/-- **C28.** Lengths and angles are preserved: scalar products are the same. -/
theorem C28_dot (p q s : Axis) (a1 a2 a3 : ℝ) (u v : V3 ℝ) :
    (rot3 p q s a1 a2 a3 *ᵥ u) ⬝ᵥ (rot3 p q s a1 a2 a3 *ᵥ v) = u ⬝ᵥ v := by
  rw [dotProduct_mulVec, ← mulVec_transpose, mulVec_mulVec, orth_left (C28_rotation ..),
    one_mulVec]

/-- **C28.** Handedness is preserved: scalar triple products are the same. -/
theorem C28_triple (p q s : Axis) (a1 a2 a3 : ℝ) (u v w : V3 ℝ) :
    (rot3 p q s a1 a2 a3 *ᵥ u) ⬝ᵥ ((rot3 p q s a1 a2 a3 *ᵥ v) ⨯₃ (rot3 p q s a1 a2 a3 *ᵥ w)) =
      u ⬝ᵥ (v ⨯₃ w) := by
  have hd : (rot3 p q s a1 a2 a3).det = 1 := (mem_specialOrthogonalGroup_iff.1 (C28_rotation ..)).2
  have key : ∀ R : M3 ℝ, (R *ᵥ u) ⬝ᵥ ((R *ᵥ v) ⨯₃ (R *ᵥ w)) = R.det * (u ⬝ᵥ (v ⨯₃ w)) := by
    intro R
    simp [Matrix.mulVec, dotProduct, Fin.sum_univ_three, cross_apply, det_fin_three]
    ring
  rw [key, hd, one_mul]

/-- **C28.** What the elementary rotations do: `RotX` fixes x and takes y to z by a quarter turn,
`RotY` takes z to x, `RotZ` takes x to y (positive rotations of a right-handed frame). -/
theorem C28_sense :
    rot .X (Real.pi / 2) *ᵥ ![0, 1, 0] = ![0, 0, 1] ∧
    rot .Y (Real.pi / 2) *ᵥ ![0, 0, 1] = ![1, 0, 0] ∧
    rot .Z (Real.pi / 2) *ᵥ ![1, 0, 0] = ![0, 1, 0] := by
  refine ⟨?_, ?_, ?_⟩ <;>
    · funext i
      fin_cases i <;> simp [rot, rotX, rotY, rotZ, Matrix.mulVec, dotProduct, Fin.sum_univ_three]

/-- **C28.** Turning by `a` and then by `b` around the same axis is turning by `a + b`. -/
theorem C28_add (p : Axis) (a b : ℝ) : rot p b * rot p a = rot p (a + b) := by
  ext i j
  cases p <;> fin_cases i <;> fin_cases j <;>
    simp [rot, rotX, rotY, rotZ, Matrix.mul_apply, Fin.sum_univ_three, Real.cos_add,
      Real.sin_add] <;> ring

/-- **C28.** Rotating a 3x3 mass matrix: same kinetic energy for the rotated velocity. -/
theorem C28_energy3 {R : M3 ℝ} (hR : R ∈ Matrix.specialOrthogonalGroup (Fin 3) ℝ) (M : M3 ℝ)
    (v : V3 ℝ) : (R *ᵥ v) ⬝ᵥ (rotateMass R M *ᵥ (R *ᵥ v)) = v ⬝ᵥ (M *ᵥ v) := by
  rw [rotateMass, mulVec_mulVec, Matrix.mul_assoc, orth_left hR, Matrix.mul_one,
    ← mulVec_mulVec, dotProduct_mulVec (R *ᵥ v), ← mulVec_transpose, mulVec_mulVec,
    orth_left hR, one_mulVec]

theorem rotateMass6_eq (R : M3 ℝ) (M : M6 ℝ) (hM : M.IsSymm) :
    rotateMass6 R M = fromBlocks R 0 0 R * M * (fromBlocks R 0 0 R)ᵀ := by
  have h12 : M.toBlocks₁₂ = M.toBlocks₂₁ᵀ := by
    ext i j; exact (hM.apply _ _).symm
  conv_rhs => rw [← fromBlocks_toBlocks M]
  rw [rotateMass6, fromBlocks_transpose, fromBlocks_multiply, fromBlocks_multiply]
  simp [rotateMass, h12, transpose_mul, Matrix.mul_assoc]

/-- **C28.** Rotating a 6x6 mass matrix: same kinetic energy for the rotated motion. -/
theorem C28_energy6 {R : M3 ℝ} (hR : R ∈ Matrix.specialOrthogonalGroup (Fin 3) ℝ) (M : M6 ℝ)
    (hM : M.IsSymm) (v w : V3 ℝ) :
    energy2 (rotateMass6 R M) (R *ᵥ v) (R *ᵥ w) = energy2 M v w := by
  have hx : Sum.elim (R *ᵥ v) (R *ᵥ w) = fromBlocks R 0 0 R *ᵥ Sum.elim v w := by
    simp [fromBlocks_mulVec]
  have ho : (fromBlocks R 0 0 R)ᵀ * fromBlocks R 0 0 R = 1 := by
    rw [fromBlocks_transpose, fromBlocks_multiply]
    simp [orth_left hR, fromBlocks_one]
  rw [energy2, energy2, hx, rotateMass6_eq R M hM, mulVec_mulVec, Matrix.mul_assoc, ho,
    Matrix.mul_one, ← mulVec_mulVec, dotProduct_mulVec (_ *ᵥ _), ← mulVec_transpose,
    mulVec_mulVec, ho, one_mulVec]

/-- **C28.** Rotating keeps the symmetry, and rotating twice is rotating by the product. -/
theorem C28_symmetric (R : M3 ℝ) (M : M6 ℝ) (hM : M.IsSymm) : (rotateMass6 R M).IsSymm := by
  rw [rotateMass6_eq R M hM, IsSymm, transpose_mul, transpose_mul, transpose_transpose, hM,
    Matrix.mul_assoc]

/-- **C28.** -/
theorem C28_compose (R S : M3 ℝ) (M : M6 ℝ) (hM : M.IsSymm) :
    rotateMass6 S (rotateMass6 R M) = rotateMass6 (S * R) M := by
  have hm : fromBlocks (S * R) 0 0 (S * R) = fromBlocks S 0 0 S * fromBlocks R 0 0 R := by
    simp [fromBlocks_multiply]
  rw [rotateMass6_eq S _ (C28_symmetric R M hM), rotateMass6_eq R M hM, rotateMass6_eq _ M hM,
    hm, transpose_mul]
  simp only [Matrix.mul_assoc]

/-- **C28.** A point fixed to a rotated body keeps its distance to the reference point, and its
velocity is that of the rigid motion. -/
theorem C28_kinematics {R : M3 ℝ} (hR : R ∈ Matrix.specialOrthogonalGroup (Fin 3) ℝ)
    (rb r v w : V3 ℝ) :
    let o := transformKinematics rb R r v w
    (o.1 - r) ⬝ᵥ (o.1 - r) = rb ⬝ᵥ rb ∧ o.2 = pointVel v w (o.1 - r) ∧
      (o.1 - r) ⬝ᵥ (o.2 - v) = 0 := by
  refine ⟨?_, ?_, ?_⟩
  · simp only [transformKinematics, add_sub_cancel_right]
    rw [dotProduct_mulVec, ← mulVec_transpose, mulVec_mulVec, orth_left hR, one_mulVec]
  · simp [transformKinematics, pointVel]
  · simp [transformKinematics, dot_cross_self]

example : rot3 .X .Y .Z 1 2 3 ∈ Matrix.specialOrthogonalGroup (Fin 3) ℝ := C28_rotation ..

/-- The rotation is not the identity: a non trivial instance. -/
example : rot .Z (Real.pi / 2) *ᵥ ![3, 0, 0] = ![0, 3, 0] := by
  funext i
  fin_cases i <;> simp [rot, rotX, rotY, rotZ, Matrix.mulVec, dotProduct, Fin.sum_univ_three]

/-! ## C54 -/

theorem writeAll_of_mem {T : Type} (v : ℕ → ℕ → T) (l : List (ℕ × ℕ)) (a : ℕ → ℕ → T) (i j : ℕ)
    (h : (i, j) ∈ l ∨ a i j = v i j) : writeAll a v l i j = v i j := by
  induction l generalizing a with
  | nil => simpa [writeAll] using h
  | cons p l ih =>
    apply ih
    rcases h with h | h
    · rcases List.mem_cons.1 h with h | h
      · right; subst h; simp
      · left; exact h
    · right
      split
      · rename_i hh; rw [hh.1, hh.2]
      · exact h

theorem writeAll_of_not_mem {T : Type} (v : ℕ → ℕ → T) (l : List (ℕ × ℕ)) (a : ℕ → ℕ → T)
    (i j : ℕ) (h : (i, j) ∉ l) : writeAll a v l i j = a i j := by
  induction l generalizing a with
  | nil => rfl
  | cons p l ih =>
    rw [writeAll, ih _ (fun h' => h (List.mem_cons_of_mem _ h'))]
    have : ¬ (i = p.1 ∧ j = p.2) := by
      rintro ⟨rfl, rfl⟩; exact h (List.mem_cons_self)
    simp [this]

theorem mem_copied6 (i j : ℕ) : (i, j) ∈ copied6 ↔ i < 3 ∧ j < 6 := by
  constructor
  · exact fun h => (by decide : ∀ p ∈ copied6, p.1 < 3 ∧ p.2 < 6) _ h
  · exact fun h => (by decide : ∀ i < 3, ∀ j < 6, (i, j) ∈ copied6) i h.1 j h.2

/-- The full claim of **C54**: on success the 36 entries of the array are those of the matrix. -/
def MatrixReturned : Prop :=
  ∀ (M a : ℕ → ℕ → ℚ), (getM (some M) a).1 = 0 →
    ∀ i j, i < 6 → j < 6 → (getM (some M) a).2 i j = M i j

/-- **C54 does not hold**: the call succeeds but the lower half of the matrix is not written.
Witness: an identity mass matrix read into a zeroed array. -/
theorem C54_false : ¬ MatrixReturned := by
  intro h
  have := h (fun i j => if i = j then 1 else 0) (fun _ _ => 0) rfl 5 5 (by omega) (by omega)
  have h' : (0 : ℚ) = 1 := by
    rw [getM, mat62array] at this
    dsimp only at this
    rwa [writeAll_of_not_mem _ _ _ _ _ (by rw [mem_copied6]; omega), if_pos rfl] at this
  simp at h'

/-- **C54**, the part that holds, and exactly what happens to the rest: rows 0 to 2 are
returned; rows 3 to 5 keep whatever the caller had there, for every matrix. -/
theorem C54_rows_partial {T : Type} (M a : ℕ → ℕ → T) (i j : ℕ) (hj : j < 6) :
    (i < 3 → (getM (some M) a).2 i j = M i j) ∧ (3 ≤ i → (getM (some M) a).2 i j = a i j) := by
  refine ⟨fun h => writeAll_of_mem _ _ _ _ _ (.inl ((mem_copied6 i j).2 ⟨h, hj⟩)), fun h => ?_⟩
  exact writeAll_of_not_mem _ _ _ _ _ (fun h' => absurd ((mem_copied6 i j).1 h').1 (by omega))

/-- **C54**: when the matrix is symmetric the caller can still recover all but the 3x3 block of
the moments of inertia; two matrices differing in that block are returned alike. -/
theorem C54_inertia_lost {T : Type} (M M' a : ℕ → ℕ → T)
    (h : ∀ i j, i < 3 → M i j = M' i j) : (getM (some M) a).2 = (getM (some M') a).2 := by
  funext i j
  by_cases hm : (i, j) ∈ copied6
  · simp only [getM, mat62array]
    rw [writeAll_of_mem _ _ _ _ _ (.inl hm),
      writeAll_of_mem _ _ _ _ _ (.inl hm)]
    exact h i j ((mem_copied6 i j).1 hm).1
  · simp only [getM, mat62array]
    rw [writeAll_of_not_mem _ _ _ _ _ hm,
      writeAll_of_not_mem _ _ _ _ _ hm]

/-- **C54**: the 3x3 exchange is complete. -/
theorem C54_mat3 {T : Type} (v a : ℕ → ℕ → T) (i j : ℕ) (hi : i < 3) (hj : j < 3) :
    mat2array v a i j = v i j := by
  apply writeAll_of_mem; left
  exact (by decide : ∀ i < 3, ∀ j < 3, (i, j) ∈ copied3) i hi j hj

/-- **C54**: a null handle is refused with the code of invalid values of the header, and the array of
the caller stays as it is. -/
theorem C54_null {T : Type} (a : ℕ → ℕ → T) :
    (getM none a).1 = -6 ∧ ∀ i j, (getM none a).2 i j = a i j := ⟨rfl, fun _ _ => rfl⟩

end MD.Mat
