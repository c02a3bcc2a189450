import Verif.Props.BodyNewton
import Verif.Model.Coupled
import Mathlib.Analysis.Calculus.MeanValue

/-!
# C94: the inertia of coupled and pinned objects follows the imposed motion

Also the drag of bodies along their axes (C32), rods pinned to bodies (C41) and the moment returned
for coupled bodies (C69).
-/

set_option linter.unusedSimpArgs false
set_option linter.unusedVariables false
set_option linter.unusedSectionVars false

namespace MD.Coupled

/-! ## C94: the acceleration the code derives from the velocities given by the caller -/

section
variable {K E : Type} [Field K] [LinearOrder K] [IsStrictOrderedRing K] [AddCommGroup E] [Module K E]

/-- The calls made by a caller who imposes the motion `x`, `v` from the time `t` on, each time with
position and velocity at the beginning of the step -/
def sampled (x v : K → E) : K → List K → List (K × E × E)
  | _, [] => []
  | t, dt :: ds => (dt, x t, v t) :: sampled x v (t + dt) ds

theorem sampled_append (x v : K → E) (t : K) (ds es : List K) :
    sampled x v t (ds ++ es) = sampled x v t ds ++ sampled x v (t + ds.sum) es := by
  induction ds generalizing t with
  | nil => simp [sampled]
  | cons d ds ih => simp [sampled, ih, add_assoc]

theorem calls_append (l l' : List (K × E × E)) (c : Ves E) :
    calls (l ++ l') c = calls l' (calls l c) := by
  induction l generalizing c with
  | nil => rfl
  | cons a l ih => simp [calls, ih]

/-- C94: after any steps, the acceleration used in a step of length `k` that follows one of length
`h` is the change of velocity over the step *before*, divided by the length of the present one. -/
theorem C94_backward (x v : K → E) (ds : List K) (h k : K) (hh : 0 < h) (hk : 0 < k) :
    (calls (sampled x v 0 (ds ++ [h, k])) (start (x 0) (v 0))).rdd
      = (1 / k) • (v (ds.sum + h) - v ds.sum) := by
  rw [sampled_append, calls_append, zero_add]
  simp [sampled, calls, call, not_le.2 hh, not_le.2 hk]

/-- C94: position and velocity used at the time `s` of the step: those of the caller at its
beginning, extrapolated with constant velocity. -/
theorem C94_kinematics (x v : K → E) (ds : List K) (k s : K) (hk : 0 < k) :
    let c := calls (sampled x v 0 (ds ++ [k])) (start (x 0) (v 0))
    (kinematics s c).1 = x ds.sum + s • v ds.sum ∧ (kinematics s c).2.1 = v ds.sum ∧
      (kinematics s c).2.2 = c.rdd := by
  simp only
  rw [sampled_append, calls_append, zero_add]
  simp [sampled, calls, call, not_le.2 hk, kinematics]

/-- C94: with a constant acceleration `a` the code uses `a` times the ratio of the lengths of the
last two steps. -/
theorem C94_ratio (x : K → E) (v0 a : E) (ds : List K) (h k : K) (hh : 0 < h) (hk : 0 < k) :
    (calls (sampled x (fun t => v0 + t • a) 0 (ds ++ [h, k])) (start (x 0) (v0 + (0 : K) • a))).rdd
      = (h / k) • a := by
  rw [C94_backward x (fun t => v0 + t • a) ds h k hh hk]
  have : v0 + (ds.sum + h) • a - (v0 + ds.sum • a) = h • a := by module
  rw [this, smul_smul]
  congr 1
  ring

/-- C94: so it is exact, from the second call on, if and only if the steps are equal. -/
theorem C94_uniform (x : K → E) (v0 a : E) (ha : a ≠ 0) (ds : List K) (h k : K) (hh : 0 < h)
    (hk : 0 < k) :
    (calls (sampled x (fun t => v0 + t • a) 0 (ds ++ [h, k])) (start (x 0) (v0 + (0 : K) • a))).rdd
      = a ↔ h = k := by
  rw [C94_ratio x v0 a ds h k hh hk]
  constructor
  · intro h1
    have h2 : (h / k - 1) • a = 0 := by rw [sub_smul, h1, one_smul, sub_self]
    rcases smul_eq_zero.1 h2 with h3 | h3
    · field_simp at h3
      linarith
    · exact absurd h3 ha
  · rintro rfl
    rw [div_self hh.ne', one_smul]

/-- C94 fails in the first step: if `Init` is given the velocity at the start, as the first call of
`Step` is, the acceleration is zero whatever the motion. -/
theorem C94_first_false (x v : K → E) (k : K) (hk : 0 < k) :
    (calls (sampled x v 0 [k]) (start (x 0) (v 0))).rdd = 0 := by
  simp [sampled, calls, call, not_le.2 hk, start]

/-- C94: a call without duration changes nothing. -/
theorem C94_no_time (dt : K) (h : dt ≤ 0) (x xd : E) (c : Ves E) : call dt x xd c = c := by
  simp [call, h]

end

/-- C94: with equal steps and any differentiable velocity, each component of the acceleration used
is a value which that component of the acceleration had during the preceding step. -/
theorem C94_mean_value (n : ℕ) (x v v' : ℝ → Fin n → ℝ) (ds : List ℝ) (h : ℝ) (hh : 0 < h)
    (hd : ∀ t i, HasDerivAt (fun s => v s i) (v' t i) t) (i : Fin n) :
    ∃ t, ds.sum < t ∧ t < ds.sum + h ∧
      (calls (sampled x v 0 (ds ++ [h, h])) (start (x 0) (v 0))).rdd i = v' t i := by
  obtain ⟨t, ht, he⟩ := exists_hasDerivAt_eq_slope (fun s => v s i) (fun s => v' s i)
    (show ds.sum < ds.sum + h by linarith)
    (fun s _ => ((hd s i).continuousAt).continuousWithinAt) (fun s _ => hd s i)
  refine ⟨t, ht.1, ht.2, ?_⟩
  rw [C94_backward x v ds h h hh hh, he]
  simp only [Pi.smul_apply, Pi.sub_apply, smul_eq_mul, add_sub_cancel_left]
  ring

/-- A vessel which starts to move with the acceleration 2 along the first axis -/
example : (calls (sampled (fun t : ℚ => (![t ^ 2, 0, 0, 0, 0, 0] : Fin 6 → ℚ))
      (fun t => 0 + t • ![2, 0, 0, 0, 0, 0]) 0 ([] ++ [1 / 2, 1 / 4])) (start 0 0)).rdd 0 = 4 := by
  simp [sampled, calls, call, start]
  norm_num

end MD.Coupled

namespace MD.Bodies

open Matrix MD.Mat MD.Rot MD.Mooring MD.Rods Finset

/-! ## C32: the drag of bodies along their axes -/

theorem axis_drag {O : M3 ℝ} (hO : O ∈ Matrix.specialOrthogonalGroup (Fin 3) ℝ) (c : V) (k : Fin 3)
    (s rho : ℝ) :
    (1 / 2 * rho * Mooring.norm (s • (O *ᵥ Pi.single k 1)))
        • ((O * diagonal c * Oᵀ) *ᵥ (s • (O *ᵥ Pi.single k 1)))
      = (1 / 2 * rho * c k * |s| * s) • (O *ᵥ Pi.single k 1) := by
  have h1 : Mooring.norm (O *ᵥ (Pi.single k 1 : V)) = 1 := by
    apply Mooring.norm_eq _ _ zero_le_one
    rw [orth_dot hO]
    simp
  have h2 : (O * diagonal c * Oᵀ) *ᵥ (O *ᵥ (Pi.single k 1 : V)) = c k • (O *ᵥ Pi.single k 1) := by
    rw [mulVec_mulVec, Matrix.mul_assoc, orth_left hO, Matrix.mul_one, ← mulVec_mulVec,
      ← mulVec_smul]
    congr 1
    funext j
    rw [mulVec_diagonal]
    by_cases hj : j = k
    · subst hj; simp
    · simp [hj]
  rw [Mooring.norm_smul, h1, mulVec_smul, h2, smul_smul, smul_smul]
  congr 1
  ring

/-- C32: in a flow of relative speed `s` along its axis `k` a body has the drag
`½ ρ CdA_k |s| s` along that axis. -/
theorem C32_body_drag_axis (b : Body) (rho_w : ℝ)
    (hO : b.OrMat ∈ Matrix.specialOrthogonalGroup (Fin 3) ℝ) (k : Fin 3) (s : ℝ)
    (h : b.U - b.v = s • (b.OrMat *ᵥ Pi.single k 1)) :
    b.drag rho_w = (1 / 2 * rho_w * b.CdA k * |s| * s) • (b.OrMat *ᵥ Pi.single k 1) := by
  unfold Body.drag
  simp only
  rw [h, axis_drag hO]

/-- C32: turning with the rate `s` about its axis `k` it has the drag moment
`-½ ρ CdA_k |s| s` about that axis, with the rotational drag area. -/
theorem C32_body_drag_spin (b : Body) (rho_w : ℝ)
    (hO : b.OrMat ∈ Matrix.specialOrthogonalGroup (Fin 3) ℝ) (k : Fin 3) (s : ℝ)
    (h : b.w = s • (b.OrMat *ᵥ Pi.single k 1)) :
    b.dragMoment rho_w = -((1 / 2 * rho_w * b.CdAr k * |s| * s) • (b.OrMat *ᵥ Pi.single k 1)) := by
  unfold Body.dragMoment
  rw [h, ← neg_smul, axis_drag hO, abs_neg, ← neg_smul]
  congr 1
  ring

/-! ## C41: rods pinned to bodies -/

/-- C41: end A of a rod pinned to a body is where the input file puts it relative to the body and
moves with the velocity of the rigid motion; axis and angular velocity of the rod stay its own. -/
theorem C41_pinned_rod (b : Body) (rel : V) (R : Rod) :
    let R' := b.setPinnedRod rel R
    Rods.r R' 0 = b.pos + b.OrMat *ᵥ rel ∧ Rods.rd R' 0 = rigidVel b.v b.w b.pos (Rods.r R' 0) ∧
      R'.q = R.q ∧ R'.w = R.w := by
  simp only
  have h1 : Rods.r (b.setPinnedRod rel R) 0 = (b.setPinnedRod rel R).r0 := r_zero
  have h2 : Rods.rd (b.setPinnedRod rel R) 0 = (b.setPinnedRod rel R).vA := by
    unfold Rods.rd
    by_cases h : (b.setPinnedRod rel R).N = 0
    · simp [h]
    · simp [Ne.symm h]
  rw [h1, h2]
  unfold Body.setPinnedRod transformKinematics rigidVel
  refine ⟨?_, ?_, rfl, rfl⟩
  · simp [add_comm]
  · simp

/-! ## C69: the moment returned for coupled bodies -/

theorem getH_t (c x : V) : (getH c)ᵀ *ᵥ x = c ⨯₃ x := by
  funext k
  fin_cases k <;> simp [getH, Matrix.mulVec, dotProduct, Fin.sum_univ_three, cross_apply] <;> ring

/-- Second row of the mass matrix of a mass at `s` -/
theorem translate_row2 (s : V) (A : M3 ℝ) (hA : A.IsSymm) (a al : V) :
    (translateMass s A).toBlocks₂₁ *ᵥ a + (translateMass s A).toBlocks₂₂ *ᵥ al
      = s ⨯₃ (A *ᵥ (a + al ⨯₃ s)) := by
  unfold translateMass
  simp only [toBlocks_fromBlocks₂₁, toBlocks_fromBlocks₂₂]
  rw [transpose_mul, hA, ← mulVec_mulVec, getH_t]
  have : getH s * A * (getH s)ᵀ = (getH s)ᵀ * (A * getH s) := by
    rw [getH_transpose]
    noncomm_ring
  rw [this, ← mulVec_mulVec, ← mulVec_mulVec, getH_t, Mat.getH_mulVec, mulVec_add, map_add]

/-- C69, moments: the moment returned for a coupled body (which has neither mass nor drag of its own)
with points is that of the forces on the points less mass times acceleration of each, about its
reference point, when it does not rotate. -/
theorem coupled_moment (b : Body) (e : Env) (points : List Point)
    (hO : b.OrMat ∈ Matrix.specialOrthogonalGroup (Fin 3) ℝ)
    (hm : b.bodyM = 0) (hv : b.bodyV = 0) (hi : b.bodyI = 0) (hc : b.CdAr = 0)
    (hs : ∀ p ∈ points, (p.doRHS e.rho_w e.g).2.IsSymm)
    {F Mo : V} {M : M6 ℝ} (h : b.doRHS e points [] = some (F, Mo, M)) (a al : V) :
    (coupledFnet (F, Mo, M) a al).2
      = (points.map fun p => (p.r - b.pos) ⨯₃
          ((p.doRHS e.rho_w e.g).1
            - (p.doRHS e.rho_w e.g).2 *ᵥ (a + al ⨯₃ (p.r - b.pos)))).sum := by
  have hM0 : b.ownM e.rho_w = 0 := by
    rw [ownM_blocks b _ hO]
    unfold addedMass inertiaCG
    rw [hm, hv, hi]
    simp
  have hF0 : (b.ownF e.rho_w e.g).2 = 0 := by
    unfold Body.ownF Body.dragMoment Body.Fgrav
    rw [hm, hv, hc]
    have : (![0, 0, 0] : V) = 0 := by funext k; fin_cases k <;> rfl
    simp [this]
  unfold Body.doRHS at h
  simp only [List.mapM_nil, Option.pure_def, Option.map_some, Option.some.injEq, addAll_eq,
    Prod.mk.injEq, List.map_nil, List.sum_nil, add_zero, List.map_map] at h
  obtain ⟨-, h2, h3⟩ := h
  rw [hF0, zero_add] at h2
  rw [hM0, zero_add] at h3
  unfold coupledFnet
  simp only
  rw [← h2, ← h3]
  clear h2 h3
  induction points with
  | nil => simp [toBlocks₂₁, toBlocks₂₂]; funext k; simp [mulVec, dotProduct]
  | cons p l ih =>
    have ih' := ih (fun q hq => hs q (by simp [hq]))
    have hp := translate_row2 (p.r - b.pos) _ (hs p (by simp)) a al
    simp only [List.map_cons, List.sum_cons, Function.comp_apply] at ih' ⊢
    rw [← ih']
    have e1 : ∀ A B : M6 ℝ, (A + B).toBlocks₂₁ = A.toBlocks₂₁ + B.toBlocks₂₁ := fun _ _ => rfl
    have e2 : ∀ A B : M6 ℝ, (A + B).toBlocks₂₂ = A.toBlocks₂₂ + B.toBlocks₂₂ := fun _ _ => rfl
    rw [e1, e2, add_mulVec, add_mulVec, map_sub, ← hp]
    unfold Point.getNetForceAndMass
    simp only
    abel

/-- C69, moments, for a coupled body which does not rotate. -/
theorem C69_coupled_moment_partial (b : Body) (e : Env) (points : List Point)
    (hO : b.OrMat ∈ Matrix.specialOrthogonalGroup (Fin 3) ℝ)
    (hm : b.bodyM = 0) (hv : b.bodyV = 0) (hi : b.bodyI = 0) (hc : b.CdAr = 0)
    (hs : ∀ p ∈ points, (p.doRHS e.rho_w e.g).2.IsSymm) (hw : b.w = 0)
    {F Mo : V} {M : M6 ℝ} (h : b.doRHS e points [] = some (F, Mo, M)) (a al : V) :
    (coupledFnet (F, Mo, M) a al).2
      = (points.map fun p => (p.r - b.pos) ⨯₃
          ((p.doRHS e.rho_w e.g).1
            - (p.doRHS e.rho_w e.g).2 *ᵥ rigidAcc a al b.w b.pos p.r)).sum := by
  rw [coupled_moment b e points hO hm hv hi hc hs h, hw]
  unfold rigidAcc
  simp

/-- A mass of 1 kg in deep space at the distance 1 from the reference point -/
noncomputable def weight : Point where
  pointM := 1
  pointV := 0
  pointF := 0
  pointCdA := 0
  pointCa := 0
  r := ![1, 0, 0]
  rd := 0
  U := 0
  attached := []

/-- A vessel which turns about an axis oblique to the direction of that mass -/
noncomputable def vessel : Body :=
  { hub with bodyM := 0, bodyI := 0, pos := 0, w := ![1, 1, 0] }

theorem weight_rhs : weight.doRHS 0 0 = (0, 1) := by
  unfold Point.doRHS weight pointLoop
  have : (![0, 0, 0] : V) = 0 := by funext k; fin_cases k <;> rfl
  simp [this]

/-- C69, moments, fails for a coupled body which rotates: the moment of the centripetal force is
missing. -/
theorem C69_coupled_moment_false : ∃ (b : Body) (e : Env) (p : Point) (F Mo : V) (M : M6 ℝ),
    b.OrMat ∈ Matrix.specialOrthogonalGroup (Fin 3) ℝ ∧ b.bodyM = 0 ∧ b.bodyV = 0 ∧ b.bodyI = 0 ∧
    b.CdAr = 0 ∧ (p.doRHS e.rho_w e.g).2.IsSymm ∧ b.doRHS e [p] [] = some (F, Mo, M) ∧
    (coupledFnet (F, Mo, M) 0 0).2
      ≠ (p.r - b.pos) ⨯₃ ((p.doRHS e.rho_w e.g).1
          - (p.doRHS e.rho_w e.g).2 *ᵥ rigidAcc 0 0 b.w b.pos p.r) := by
  have hd : ∃ x, vessel.doRHS space [weight] [] = some x := by
    unfold Body.doRHS
    simp
  obtain ⟨⟨F, Mo, M⟩, h⟩ := hd
  have hw : weight.doRHS space.rho_w space.g = (0, 1) := weight_rhs
  have hs : (weight.doRHS space.rho_w space.g).2.IsSymm := by
    rw [hw]; exact Matrix.isSymm_one
  have hO : vessel.OrMat ∈ Matrix.specialOrthogonalGroup (Fin 3) ℝ := one_mem _
  refine ⟨vessel, space, weight, F, Mo, M, hO, rfl, rfl, rfl, rfl, hs, h, ?_⟩
  have h1 := coupled_moment vessel space [weight] hO rfl rfl rfl rfl (by simpa using hs) h 0 0
  rw [h1]
  intro hc
  simp only [List.map_cons, List.map_nil, List.sum_cons, List.sum_nil, hw] at hc
  have h2 := congrFun hc 2
  simp [rigidAcc, weight, vessel, cross_apply] at h2

/-! ## C94: pinned objects -/

/-- Second row of the own mass matrix of a body -/
theorem ownM_row2 (b : Body) (rho_w : ℝ)
    (hO : b.OrMat ∈ Matrix.specialOrthogonalGroup (Fin 3) ℝ) (a al : V) :
    (b.ownM rho_w).toBlocks₂₁ *ᵥ a + (b.ownM rho_w).toBlocks₂₂ *ᵥ al
      = b.bodyM • (b.rCG ⨯₃ a) + inertiaRef b al
        + ((b.bodyV * rho_w) • (b.OrMat * diagonal b.Car * b.OrMatᵀ)) *ᵥ al := by
  rw [ownM_blocks b rho_w hO]
  simp only [toBlocks_fromBlocks₂₁, toBlocks_fromBlocks₂₂, neg_mulVec, smul_mulVec, add_mulVec,
    ← mulVec_mulVec (M := b.OrMat * getH b.body_rCG * b.OrMatᵀ), rot_getH hO]
  have hrc : b.OrMat *ᵥ b.body_rCG = b.rCG := rfl
  unfold inertiaRef
  rw [hrc, ← cross_anticomm b.rCG a, ← cross_anticomm b.rCG (al ⨯₃ b.rCG)]
  simp only [smul_neg, neg_neg]
  abel

/-- What the angular acceleration of a coupled pinned body with points satisfies -/
theorem pinned_body (b : Body) (e : Env) (points : List Point)
    (hO : b.OrMat ∈ Matrix.specialOrthogonalGroup (Fin 3) ℝ)
    (hs : ∀ p ∈ points, (p.doRHS e.rho_w e.g).2.IsSymm) {a al : V}
    (h : b.pinnedAcc e points [] a al) :
    b.bodyM • (b.rCG ⨯₃ a) + inertiaRef b al
        + ((b.bodyV * e.rho_w) • (b.OrMat * diagonal b.Car * b.OrMatᵀ)) *ᵥ al
        + (points.map fun p => (p.r - b.pos) ⨯₃
            ((p.doRHS e.rho_w e.g).2 *ᵥ (a + al ⨯₃ (p.r - b.pos)))).sum
      = b.rCG ⨯₃ b.Fgrav e.rho_w e.g + b.dragMoment e.rho_w
        + (points.map fun p => (p.r - b.pos) ⨯₃ (p.doRHS e.rho_w e.g).1).sum := by
  obtain ⟨F, Mo, M, h, h0⟩ := h
  unfold Body.doRHS at h
  simp only [List.mapM_nil, Option.pure_def, Option.map_some, Option.some.injEq, addAll_eq,
    Prod.mk.injEq, List.map_nil, List.sum_nil, add_zero, List.map_map] at h
  obtain ⟨-, h2, h3⟩ := h
  have key : ∀ l : List Point, (∀ p ∈ l, (p.doRHS e.rho_w e.g).2.IsSymm) →
      (l.map ((fun x : V × V × M6 ℝ => x.2.2) ∘ fun p : Point =>
          p.getNetForceAndMass e.rho_w e.g b.pos b.w)).sum.toBlocks₂₁ *ᵥ a
        + (l.map ((fun x : V × V × M6 ℝ => x.2.2) ∘ fun p : Point =>
          p.getNetForceAndMass e.rho_w e.g b.pos b.w)).sum.toBlocks₂₂ *ᵥ al
      = (l.map fun p => (p.r - b.pos) ⨯₃
            ((p.doRHS e.rho_w e.g).2 *ᵥ (a + al ⨯₃ (p.r - b.pos)))).sum := by
    intro l
    induction l with
    | nil => intro _; simp [toBlocks₂₁, toBlocks₂₂]; funext k; simp [mulVec, dotProduct]
    | cons p l ih =>
      intro hl
      have ih' := ih (fun q hq => hl q (by simp [hq]))
      have hp := translate_row2 (p.r - b.pos) _ (hl p (by simp)) a al
      simp only [List.map_cons, List.sum_cons]
      rw [← ih', ← hp]
      have e1 : ∀ A B : M6 ℝ, (A + B).toBlocks₂₁ = A.toBlocks₂₁ + B.toBlocks₂₁ := fun _ _ => rfl
      have e2 : ∀ A B : M6 ℝ, (A + B).toBlocks₂₂ = A.toBlocks₂₂ + B.toBlocks₂₂ := fun _ _ => rfl
      rw [e1, e2, add_mulVec, add_mulVec]
      simp only [Function.comp_apply, Point.getNetForceAndMass]
      abel
  have e1 : ∀ A B : M6 ℝ, (A + B).toBlocks₂₁ = A.toBlocks₂₁ + B.toBlocks₂₁ := fun _ _ => rfl
  have e2 : ∀ A B : M6 ℝ, (A + B).toBlocks₂₂ = A.toBlocks₂₂ + B.toBlocks₂₂ := fun _ _ => rfl
  rw [← key points hs, ← ownM_row2 b _ hO]
  rw [← h3, e1, e2, add_mulVec, add_mulVec, ← h2, eq_sub_iff_add_eq] at h0
  have hown : (b.ownF e.rho_w e.g).2 = b.rCG ⨯₃ b.Fgrav e.rho_w e.g + b.dragMoment e.rho_w := rfl
  have hmap : (points.map ((fun x : V × V × M6 ℝ => x.2.1) ∘ fun p : Point =>
      p.getNetForceAndMass e.rho_w e.g b.pos b.w))
      = points.map fun p => (p.r - b.pos) ⨯₃ (p.doRHS e.rho_w e.g).1 := rfl
  rw [hown, hmap] at h0
  rw [← h0]
  abel

/-- C94: a coupled pinned body which does not rotate turns as the law of angular momentum about the
moving pin tells, with the acceleration given to the pin: moment of the inertia of the body, of the
added inertia and of the points is the moment of weight, drag and forces on the points. -/
theorem C94_pinned_body_partial (b : Body) (e : Env) (points : List Point)
    (hO : b.OrMat ∈ Matrix.specialOrthogonalGroup (Fin 3) ℝ)
    (hs : ∀ p ∈ points, (p.doRHS e.rho_w e.g).2.IsSymm) (hw : b.w = 0) {a al : V}
    (h : b.pinnedAcc e points [] a al) :
    b.rCG ⨯₃ (b.bodyM • rigidAcc a al b.w b.pos (b.pos + b.rCG))
        + inertiaCG b *ᵥ al + b.w ⨯₃ (inertiaCG b *ᵥ b.w)
        + ((b.bodyV * e.rho_w) • (b.OrMat * diagonal b.Car * b.OrMatᵀ)) *ᵥ al
        + (points.map fun p => (p.r - b.pos) ⨯₃
            ((p.doRHS e.rho_w e.g).2 *ᵥ rigidAcc a al b.w b.pos p.r)).sum
      = b.rCG ⨯₃ b.Fgrav e.rho_w e.g + b.dragMoment e.rho_w
        + (points.map fun p => (p.r - b.pos) ⨯₃ (p.doRHS e.rho_w e.g).1).sum := by
  rw [← pinned_body b e points hO hs h, hw]
  unfold rigidAcc inertiaRef
  simp only [LinearMap.zero_apply, map_zero, add_zero, add_sub_cancel_left, smul_add, map_add,
    map_smul]
  abel

/-- The moment of inertia of a uniform solid cylinder about its end A, applied to `x` -/
noncomputable def inertiaEnd (R : Rod) (x : V) : V :=
  (mass R * ((R.d / 2) ^ 2 / 4 + R.UnstrLen ^ 2 / 3)) • (x - (R.q ⬝ᵥ x) • R.q)
    + (mass R * (R.d / 2) ^ 2 / 2 * (R.q ⬝ᵥ x)) • R.q

/-- Moment about end A of the inertia of what water and lines add to the nodes -/
noncomputable def addedMoment (R : Rod) (e : Env) (phi : ℝ) (acc : V → V) : V :=
  ∑ i ∈ range (R.N + 1), (Rods.r R i - Rods.r R 0) ⨯₃
    ((addedM R e phi i + lineM R i) *ᵥ acc (Rods.r R i))

/-- Moment about end A of the forces on the nodes and of the external moments -/
noncomputable def loadMoment (R : Rod) (e : Env) (ang : ℝ × ℝ) : V :=
  ∑ i ∈ range (R.N + 1), (Rods.r R i - Rods.r R 0) ⨯₃ Rods.Fnet R e ang.1 ang.2 i
    + Mext R e ang.1 ang.2

theorem cylinder_row2 (R : Rod) (hR : Proper R) (a al : V) :
    (cylinder (mass R) (R.d / 2) R.UnstrLen R.q).toBlocks₂₁ *ᵥ a
        + (cylinder (mass R) (R.d / 2) R.UnstrLen R.q).toBlocks₂₂ *ᵥ al
      = mass R • (((R.UnstrLen / 2) • R.q) ⨯₃ a) + inertiaEnd R al := by
  unfold cylinder inertiaEnd
  simp only [toBlocks_fromBlocks₂₁, toBlocks_fromBlocks₂₂, transpose_smul, smul_mulVec, getH_t,
    add_mulVec, sub_mulVec, one_mulVec, Q_smul, dotProduct_smul, smul_dotProduct, hR.hq,
    smul_eq_mul, mul_one]
  have hv : vecMulVec R.q R.q *ᵥ al = (R.q ⬝ᵥ al) • R.q := by
    funext k
    simp [vecMulVec_mulVec]
    try ring
  rw [hv]
  module

/-- What the code solves for the rotation of a rod about its end A, given the acceleration `a` of
that end -/
theorem pinned_rod (R : Rod) (hR : Proper R) (hh : HeadingOk R) (hn : 6 * R.N * R.N < 2 ^ 32)
    (e : Env) {ang : ℝ × ℝ} (hang : angles R = some ang)
    (hs : ∀ i, (addedM R e ang.1 i + lineM R i).IsSymm) {F Mo : V} {M6 : M6 ℝ}
    (h : getNetForceAndMass R e (Rods.r R 0) 0 = some (F, Mo, M6)) (a al : V) :
    M6.toBlocks₂₁ *ᵥ a + M6.toBlocks₂₂ *ᵥ al - Mo
      = mass R • (((R.UnstrLen / 2) • R.q) ⨯₃ a) + inertiaEnd R al
        + addedMoment R e ang.1 (fun x => a + al ⨯₃ (x - Rods.r R 0)) - loadMoment R e ang := by
  have hM := C36_inertia_partial (e := e) hR hh hn hang
  unfold getNetForceAndMass at h
  rw [hang, Option.bind_some, hM] at h
  simp only [Option.map_some, Option.some.injEq, sub_self, Prod.mk.injEq] at h
  obtain ⟨-, hMo, hM6⟩ := h
  have h0 : getH (0 : V) = 0 := by
    ext i j
    fin_cases i <;> fin_cases j <;> simp [getH]
  have hsum : ∑ i ∈ range (R.N + 1), translateMass (Rods.r R i - Rods.r R 0)
        (addedM R e ang.1 i + lineM R i)
      = fromBlocks (∑ i ∈ range (R.N + 1), (addedM R e ang.1 i + lineM R i))
        (∑ i ∈ range (R.N + 1), (addedM R e ang.1 i + lineM R i) * getH (Rods.r R i - Rods.r R 0))
        (∑ i ∈ range (R.N + 1),
          ((addedM R e ang.1 i + lineM R i) * getH (Rods.r R i - Rods.r R 0))ᵀ)
        (∑ i ∈ range (R.N + 1), getH (Rods.r R i - Rods.r R 0) * (addedM R e ang.1 i + lineM R i)
          * (getH (Rods.r R i - Rods.r R 0))ᵀ) := by
    unfold translateMass
    rw [sum_fromBlocks]
  have hcyl : cylinder (mass R) (R.d / 2) R.UnstrLen R.q
      = fromBlocks (cylinder (mass R) (R.d / 2) R.UnstrLen R.q).toBlocks₁₁
        (cylinder (mass R) (R.d / 2) R.UnstrLen R.q).toBlocks₁₂
        (cylinder (mass R) (R.d / 2) R.UnstrLen R.q).toBlocks₂₁
        (cylinder (mass R) (R.d / 2) R.UnstrLen R.q).toBlocks₂₂ := (fromBlocks_toBlocks _).symm
  have hct : (cylinder (mass R) (R.d / 2) R.UnstrLen R.q).toBlocks₁₂ᵀ
      = (cylinder (mass R) (R.d / 2) R.UnstrLen R.q).toBlocks₂₁ := by
    unfold cylinder
    simp only [toBlocks_fromBlocks₁₂, toBlocks_fromBlocks₂₁]
  rw [hsum, hcyl, fromBlocks_add] at hM6
  unfold translateMass6 at hM6
  simp only [h0, toBlocks_fromBlocks₁₁, toBlocks_fromBlocks₁₂, toBlocks_fromBlocks₂₁,
    toBlocks_fromBlocks₂₂, Matrix.mul_zero, Matrix.zero_mul, zero_add, Matrix.transpose_zero,
    add_zero, transpose_add, hct, transpose_sum] at hM6
  have hrow : ∀ i ∈ range (R.N + 1), (Rods.r R i - Rods.r R 0) ⨯₃
        ((addedM R e ang.1 i + lineM R i) *ᵥ (a + al ⨯₃ (Rods.r R i - Rods.r R 0)))
      = ((addedM R e ang.1 i + lineM R i) * getH (Rods.r R i - Rods.r R 0))ᵀ *ᵥ a
        + (getH (Rods.r R i - Rods.r R 0) * (addedM R e ang.1 i + lineM R i)
          * (getH (Rods.r R i - Rods.r R 0))ᵀ) *ᵥ al := by
    intro i _
    have := translate_row2 (Rods.r R i - Rods.r R 0) _ (hs i) a al
    unfold translateMass at this
    simp only [toBlocks_fromBlocks₂₁, toBlocks_fromBlocks₂₂] at this
    exact this.symm
  unfold addedMoment
  rw [sum_congr rfl hrow, sum_add_distrib, ← sum_mulVec, ← sum_mulVec, ← cylinder_row2 R hR,
    ← hM6]
  simp only [toBlocks_fromBlocks₂₁, toBlocks_fromBlocks₂₂, add_mulVec]
  have hMo' : Mo = loadMoment R e ang := by
    rw [← hMo]
    unfold F6net loadMoment
    simp
  rw [hMo']
  abel

/-- C94: a rod coupled by a pin, when it does not rotate, turns as the law of angular momentum about
the moving pin tells, with the acceleration given to the pin. -/
theorem C94_coupled_pinned_rod_partial (R : Rod) (hR : Proper R) (hh : HeadingOk R)
    (hn : 6 * R.N * R.N < 2 ^ 32) (e : Env) {ang : ℝ × ℝ} (hang : angles R = some ang)
    (hs : ∀ i, (addedM R e ang.1 i + lineM R i).IsSymm) (hw : R.w = 0) {a al : V}
    (h : coupledPinnedRodAcc R e a al) :
    mass R • (((R.UnstrLen / 2) • R.q) ⨯₃ a) + inertiaEnd R al + R.w ⨯₃ inertiaEnd R R.w
        + addedMoment R e ang.1 (fun x => rigidAcc a al R.w (Rods.r R 0) x)
      = loadMoment R e ang := by
  obtain ⟨F, Mo, M6, h1, h2⟩ := h
  have h3 := pinned_rod R hR hh hn e hang hs h1 a al
  rw [h2] at h3
  have h4 : (0 : V) = mass R • (((R.UnstrLen / 2) • R.q) ⨯₃ a) + inertiaEnd R al
        + addedMoment R e ang.1 (fun x => a + al ⨯₃ (x - Rods.r R 0)) - loadMoment R e ang := by
    rw [← h3]; abel
  rw [hw]
  simp only [rigidAcc, LinearMap.zero_apply, map_zero, add_zero]
  exact sub_eq_zero.1 h4.symm

/-- C94, rotating rods, in vacuum and without lines: the law of angular momentum holds if and only
if the rod turns about its axis or about a line across it. -/
theorem C94_coupled_pinned_rod_iff (R : Rod) (hR : Proper R) (hh : HeadingOk R)
    (hn : 6 * R.N * R.N < 2 ^ 32) (e : Env) {ang : ℝ × ℝ} (hang : angles R = some ang)
    (hv : e.rho_w = 0) (hA : R.attachedA = []) (hB : R.attachedB = []) (hr : 0 < R.rho)
    (hsl : 3 * (R.d / 2) ^ 2 ≠ 4 * R.UnstrLen ^ 2) {a al : V}
    (h : coupledPinnedRodAcc R e a al) :
    mass R • (((R.UnstrLen / 2) • R.q) ⨯₃ a) + inertiaEnd R al + R.w ⨯₃ inertiaEnd R R.w
      = loadMoment R e ang ↔ R.q ⬝ᵥ R.w = 0 ∨ R.w ⨯₃ R.q = 0 := by
  obtain ⟨F, Mo, M6, h1, h2⟩ := h
  have hz : ∀ i, addedM R e ang.1 i + lineM R i = 0 := by
    intro i
    unfold addedM lineM
    rw [hv, hA, hB]
    simp
  have h3 := pinned_rod R hR hh hn e hang (fun i => by rw [hz i]; exact isSymm_zero) h1 a al
  have ha : ∀ f, addedMoment R e ang.1 f = 0 := by
    intro f
    unfold addedMoment
    apply sum_eq_zero
    intro i _
    rw [hz i]
    simp
  rw [h2, ha, add_zero] at h3
  have h4 : mass R • (((R.UnstrLen / 2) • R.q) ⨯₃ a) + inertiaEnd R al = loadMoment R e ang := by
    rw [← sub_eq_zero, ← h3]; abel
  rw [h4, add_eq_left]
  have h5 : R.w ⨯₃ inertiaEnd R R.w
      = (mass R * ((R.d / 2) ^ 2 / 4 - R.UnstrLen ^ 2 / 3) * (R.q ⬝ᵥ R.w)) • (R.w ⨯₃ R.q) := by
    unfold inertiaEnd
    rw [map_add, map_smul, map_smul, map_sub, map_smul, cross_self]
    module
  have hm : mass R ≠ 0 := by
    have := hR.hL
    have := hR.hd
    have := Real.pi_pos
    unfold mass; positivity
  have hc : (R.d / 2) ^ 2 / 4 - R.UnstrLen ^ 2 / 3 ≠ 0 := by
    intro hc
    apply hsl
    linarith
  rw [h5, smul_eq_zero, mul_eq_zero, mul_eq_zero]
  simp [hm, hc]

/-- C94 fails for rods pinned to bodies: the acceleration of the pin is never handed to the rod. In
vacuum the law of angular momentum fails whenever the pin accelerates across the rod. -/
theorem C94_pinned_rod_false (R : Rod) (hR : Proper R) (hh : HeadingOk R)
    (hn : 6 * R.N * R.N < 2 ^ 32) (e : Env) {ang : ℝ × ℝ} (hang : angles R = some ang)
    (hv : e.rho_w = 0) (hA : R.attachedA = []) (hB : R.attachedB = []) (hr : 0 < R.rho)
    (hw : R.w = 0) {a al : V} (ha : R.q ⨯₃ a ≠ 0) (h : pinnedRodAcc R e al) :
    mass R • (((R.UnstrLen / 2) • R.q) ⨯₃ a) + inertiaEnd R al + R.w ⨯₃ inertiaEnd R R.w
      ≠ loadMoment R e ang := by
  obtain ⟨F, Mo, M6, h1, h2⟩ := h
  have hz : ∀ i, addedM R e ang.1 i + lineM R i = 0 := by
    intro i
    unfold addedM lineM
    rw [hv, hA, hB]
    simp
  have h3 := pinned_rod R hR hh hn e hang (fun i => by rw [hz i]; exact isSymm_zero) h1 0 al
  have ha0 : addedMoment R e ang.1 (fun x => 0 + al ⨯₃ (x - Rods.r R 0)) = 0 := by
    unfold addedMoment
    apply sum_eq_zero
    intro i _
    rw [hz i]
    simp
  rw [h2, ha0] at h3
  simp only [mulVec_zero, zero_add, sub_self, map_zero, smul_zero, add_zero] at h3
  have h4 : inertiaEnd R al = loadMoment R e ang := (sub_eq_zero.1 h3.symm)
  rw [h4, hw]
  simp only [LinearMap.zero_apply, map_zero, add_zero]
  intro hc
  rw [add_eq_right] at hc
  have hm : mass R ≠ 0 := by
    have := hR.hL
    have := hR.hd
    have := Real.pi_pos
    unfold mass; positivity
  have hL : R.UnstrLen / 2 ≠ 0 := by have := hR.hL; positivity
  rw [smul_eq_zero_iff_right hm, LinearMap.map_smul₂, smul_eq_zero_iff_right hL] at hc
  exact ha hc

/-- C94: what holds for rods pinned to bodies: the law of angular momentum about a pin which does not
accelerate, for a rod which does not rotate. -/
theorem C94_pinned_rod_partial (R : Rod) (hR : Proper R) (hh : HeadingOk R)
    (hn : 6 * R.N * R.N < 2 ^ 32) (e : Env) {ang : ℝ × ℝ} (hang : angles R = some ang)
    (hs : ∀ i, (addedM R e ang.1 i + lineM R i).IsSymm) (hw : R.w = 0) {al : V}
    (h : pinnedRodAcc R e al) :
    inertiaEnd R al + R.w ⨯₃ inertiaEnd R R.w
        + addedMoment R e ang.1 (fun x => rigidAcc 0 al R.w (Rods.r R 0) x)
      = loadMoment R e ang := by
  have h1 : coupledPinnedRodAcc R e 0 al := by
    obtain ⟨F, Mo, M6, h1, h2⟩ := h
    exact ⟨F, Mo, M6, h1, by rw [h2]; simp⟩
  have h2 := C94_coupled_pinned_rod_partial R hR hh hn e hang hs hw h1
  simpa using h2

/-! ## Examples -/

/-- The rod of the examples, in air, meets the hypotheses for rods: it accelerates about its pin
under its weight. -/
example : ∃ ang, angles (spar 0) = some ang ∧ Proper (spar 0) ∧ HeadingOk (spar 0) ∧
    6 * (spar 0).N * (spar 0).N < 2 ^ 32 ∧ (∀ i, (addedM (spar 0) air ang.1 i
      + lineM (spar 0) i).IsSymm) ∧ (spar 0).q ⨯₃ (![1, 0, 0] : V) ≠ 0 := by
  obtain ⟨ang, hang⟩ := angles_isSome (spar_proper 0)
  refine ⟨ang, hang, spar_proper 0, Or.inr ?_, by simp [spar], ?_, ?_⟩
  · have : (spar 0).q 0 * (spar 0).q 0 + (spar 0).q 1 * (spar 0).q 1 = (3 / 5) ^ 2 := by
      simp [spar]; norm_num
    rw [this, Real.sqrt_sq (by norm_num)]
    norm_num
  · intro i
    have : addedM (spar 0) air ang.1 i + lineM (spar 0) i = 0 := by
      unfold addedM lineM
      have hr : air.rho_w = 0 := rfl
      have hA : (spar 0).attachedA = [] := rfl
      have hB : (spar 0).attachedB = [] := rfl
      rw [hr, hA, hB]
      simp
    rw [this]
    exact isSymm_zero
  · intro h
    have := congrFun h 1
    simp [spar, cross_apply] at this

/-- A hub held by a pin at its reference point which carries the mass of the examples beside it and
is pushed across: it turns. -/
example : ({ hub with pos := 0 } : Body).pinnedAcc space [weight] [] ![0, -301, 0] ![0, 0, 1] := by
  have hw : weight.doRHS space.rho_w space.g = (0, 1) := weight_rhs
  have hd : ∃ x, ({ hub with pos := 0 } : Body).doRHS space [weight] [] = some x := by
    unfold Body.doRHS
    simp
  obtain ⟨⟨F, Mo, M⟩, h⟩ := hd
  refine ⟨F, Mo, M, h, ?_⟩
  unfold Body.doRHS at h
  simp only [List.mapM_nil, Option.pure_def, Option.map_some, Option.some.injEq, addAll_eq,
    Prod.mk.injEq, List.map_cons, List.map_nil, List.sum_cons, List.sum_nil, add_zero] at h
  obtain ⟨-, h2, h3⟩ := h
  have hO : ({ hub with pos := 0 } : Body).OrMat ∈ Matrix.specialOrthogonalGroup (Fin 3) ℝ :=
    one_mem _
  have hc : ({ hub with pos := 0 } : Body).rCG = 0 := by simp [Body.rCG, hub]
  have hrow := ownM_row2 { hub with pos := 0 } space.rho_w hO ![0, -301, 0] ![0, 0, 1]
  have hI : inertiaCG ({ hub with pos := 0 } : Body) = diagonal ![100, 200, 300] := by
    simp [inertiaCG, hub]
  have hp := translate_row2 (weight.r - 0) 1 isSymm_one ![0, -301, 0] ![0, 0, 1]
  have e1 : ∀ A B : M6 ℝ, (A + B).toBlocks₂₁ = A.toBlocks₂₁ + B.toBlocks₂₁ := fun _ _ => rfl
  have e2 : ∀ A B : M6 ℝ, (A + B).toBlocks₂₂ = A.toBlocks₂₂ + B.toBlocks₂₂ := fun _ _ => rfl
  have hMo : Mo = 0 := by
    rw [← h2]
    unfold Point.getNetForceAndMass Body.ownF Body.dragMoment
    rw [hw, hc]
    simp [hub]
  have hg : (weight.getNetForceAndMass space.rho_w space.g 0 hub.w).2.2
      = translateMass (weight.r - 0) 1 := by
    unfold Point.getNetForceAndMass
    rw [hw]
  have hM : M = ({ hub with pos := 0 } : Body).ownM space.rho_w
      + translateMass (weight.r - 0) 1 := by rw [← h3, ← hg]
  rw [hMo, eq_sub_iff_add_eq, hM, e1, e2, add_mulVec, add_mulVec, add_comm, add_add_add_comm, hrow,
    hp, hc]
  unfold inertiaRef
  rw [hI, hc]
  funext k
  fin_cases k <;> simp [hub, weight, cross_apply, mulVec_diagonal]
  norm_num

end MD.Bodies
