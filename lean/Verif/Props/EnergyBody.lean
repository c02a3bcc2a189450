import Verif.Props.Balance
import Verif.Props.BodyNewton

/-!
# C102: the energy of bodies
-/

set_option linter.unusedSimpArgs false
set_option linter.unusedSectionVars false
set_option linter.unusedVariables false

namespace MD.Energy

open Matrix MD.Mat MD.Rot MD.Mooring MD.Bodies

/-! ## Specification -/

/-- The body `B` in a motion in still water: place, orientation, velocity and angular velocity. -/
noncomputable def moving (B : Body) (x : ℝ → V) (q : ℝ → Quat ℝ) (v w : ℝ → V) (t : ℝ) : Body :=
  { B with pos := x t, OrMat := orMat (q t), v := v t, w := w t, U := 0 }

/-- The motion of a free body without points and rods: at the times `T` the rates are those that MoorDyn computes. -/
structure Sails (B : Body) (e : Env) (T : Set ℝ) (x : ℝ → V) (q : ℝ → Quat ℝ) (v w : ℝ → V) : Prop where
  pos : ∀ t ∈ T, HasDerivAt x (v t) t
  turn : Evolves w q
  start : 0 < (q 0).normSq
  acc : ∀ t ∈ T, ∃ a al, HasDerivAt v a t ∧ HasDerivAt w al t ∧ (moving B x q v w t).freeAcc e [] [] a al

/-- Velocity of the centre of gravity. -/
noncomputable def velCG (b : Body) : V := b.v + b.w ⨯₃ b.rCG

/-- Kinetic energy of the mass and of the water that is carried, and potential energy of weight less buoyancy. -/
noncomputable def bodyEnergy (b : Body) (rho g : ℝ) : ℝ :=
  1 / 2 * b.bodyM * (velCG b ⬝ᵥ velCG b) + 1 / 2 * (b.w ⬝ᵥ ((b.OrMat * diagonal b.bodyI * b.OrMatᵀ) *ᵥ b.w))
    + 1 / 2 * (b.bodyV * rho) * (b.v ⬝ᵥ ((b.OrMat * diagonal b.Ca * b.OrMatᵀ) *ᵥ b.v))
    + 1 / 2 * (b.bodyV * rho) * (b.w ⬝ᵥ ((b.OrMat * diagonal b.Car * b.OrMatᵀ) *ᵥ b.w))
    + (b.bodyM * g - b.bodyV * rho * g) * (b.pos 2 + b.rCG 2)

/-- The rod `R` in a motion. -/
noncomputable def movingRod (R : Rods.Rod) (x : ℝ → V) (q : ℝ → Quat ℝ) (v w : ℝ → V) (t : ℝ) : Rods.Rod :=
  { R with r0 := x t, q := orMat (q t) *ᵥ R.q, vA := v t, w := w t }

/-- The motion of a free rod: at the times `T` the rates are those that MoorDyn computes. -/
structure RodSails (R : Rods.Rod) (e : Env) (T : Set ℝ) (x : ℝ → V) (q : ℝ → Quat ℝ) (v w : ℝ → V) : Prop where
  pos : ∀ t ∈ T, HasDerivAt x (v t) t
  turn : Evolves w q
  start : 0 < (q 0).normSq
  acc : ∀ t ∈ T, ∃ a al, HasDerivAt v a t ∧ HasDerivAt w al t ∧ Rods.freeAcc (movingRod R x q v w t) e a al

/-- Kinetic energy of a cylinder (the inertia about its centre across and along the axis) and potential energy of its weight. -/
noncomputable def rodEnergy (R : Rods.Rod) (g : ℝ) : ℝ :=
  let m := R.UnstrLen * (Real.pi / 4 * R.d ^ 2) * R.rho
  let vc := R.vA + R.w ⨯₃ ((R.UnstrLen / 2) • R.q)
  1 / 2 * m * (vc ⬝ᵥ vc) + 1 / 2 * m * ((R.d ^ 2 / 16 + R.UnstrLen ^ 2 / 12) * (R.w ⬝ᵥ R.w - (R.w ⬝ᵥ R.q) ^ 2) + R.d ^ 2 / 8 * (R.w ⬝ᵥ R.q) ^ 2)
    + m * g * (R.r0 2 + R.UnstrLen / 2 * R.q 2)

/-! ## The rate of the energy -/

/-- The axis `i` of the body. -/
noncomputable def axis (R : M3 ℝ) (i : Fin 3) : V := R *ᵥ Pi.single i 1

theorem quad_eq (R : M3 ℝ) (K x y : V) : x ⬝ᵥ ((R * diagonal K * Rᵀ) *ᵥ y) = ∑ i, K i * (axis R i ⬝ᵥ x) * (axis R i ⬝ᵥ y) := by
  simp [axis, dotProduct, Fin.sum_univ_three, mulVec, Matrix.mul_apply, diagonal, Matrix.transpose_apply, Pi.single_apply]
  ring

theorem quad_deriv {q : ℝ → Quat ℝ} {w : ℝ → V} (hq : Evolves w q) (h0 : 0 < (q 0).normSq) (K : V) {x : ℝ → V} {x' : V} {t : ℝ}
    (hx : HasDerivAt x x' t) :
    HasDerivAt (fun s => x s ⬝ᵥ ((orMat (q s) * diagonal K * (orMat (q s))ᵀ) *ᵥ x s))
      (2 * (x t ⬝ᵥ ((orMat (q t) * diagonal K * (orMat (q t))ᵀ) *ᵥ (x' - w t ⨯₃ x t)))) t := by
  have hn : ∀ i, HasDerivAt (fun s => axis (orMat (q s)) i ⬝ᵥ x s) (axis (orMat (q t)) i ⬝ᵥ (x' - w t ⨯₃ x t)) t := by
    intro i
    have h1 := deriv_dot (C42_angular_velocity w q hq h0 (Pi.single i 1) t) hx
    refine h1.congr_deriv ?_
    show (w t ⨯₃ axis (orMat (q t)) i) ⬝ᵥ x t + axis (orMat (q t)) i ⬝ᵥ x' = _
    generalize axis (orMat (q t)) i = n
    generalize w t = w
    generalize x t = x
    simp [dotProduct, Fin.sum_univ_three, cross_apply]
    ring
  have h2 : HasDerivAt (fun s => ∑ i, K i * (axis (orMat (q s)) i ⬝ᵥ x s) * (axis (orMat (q s)) i ⬝ᵥ x s))
      (∑ i, 2 * (K i * (axis (orMat (q t)) i ⬝ᵥ x t) * (axis (orMat (q t)) i ⬝ᵥ (x' - w t ⨯₃ x t)))) t := by
    apply HasDerivAt.fun_sum
    intro i _
    refine (((hn i).const_mul (K i)).mul (hn i)).congr_deriv ?_
    ring
  rw [quad_eq, Finset.mul_sum]
  exact h2.congr_of_eventuallyEq (Filter.Eventually.of_forall fun s => quad_eq _ _ _ _)

/-- The equations of a free body without points and rods. -/
theorem bare_free (b : Body) (e : Env) (hO : b.OrMat ∈ Matrix.specialOrthogonalGroup (Fin 3) ℝ) {a al : V} (h : b.freeAcc e [] [] a al) :
    b.bodyM • (a + al ⨯₃ b.rCG) + addedMass b e.rho_w *ᵥ a =
      b.Fgrav e.rho_w e.g - (b.bodyM • (b.w ⨯₃ (b.w ⨯₃ b.rCG)) + addedMass b e.rho_w *ᵥ (b.w ⨯₃ (b.w ⨯₃ b.rCG))) + b.drag e.rho_w ∧
    -(b.bodyM • (a ⨯₃ b.rCG)) + (-(b.bodyM • ((al ⨯₃ b.rCG) ⨯₃ b.rCG)) + inertiaCG b *ᵥ al +
      (b.bodyV * e.rho_w) • ((b.OrMat * diagonal b.Car * b.OrMatᵀ) *ᵥ al)) = b.rCG ⨯₃ b.Fgrav e.rho_w e.g + b.dragMoment e.rho_w := by
  obtain ⟨F, Mo, M, h1, h2⟩ := h
  unfold Body.doRHS at h1
  simp only [List.mapM_nil, List.map_nil, Option.map_eq_some_iff, addAll_eq, Prod.mk.injEq, List.sum_nil, add_zero] at h1
  obtain ⟨l, hl, hF, hM, hM6⟩ := h1
  have hl0 : l = [] := by simpa using hl.symm
  subst hl0
  simp only [List.map_nil, List.sum_nil, add_zero] at hM hM6 hF
  have h3 := congrArg (fun f => f ∘ Sum.inl) h2
  have h4 := congrArg (fun f => f ∘ Sum.inr) h2
  simp only [Sum.elim_comp_inl, Sum.elim_comp_inr] at h3 h4
  have hrc : b.OrMat *ᵥ b.body_rCG = b.rCG := rfl
  constructor
  · rw [← hM6, ownM_row b _ hO, ← hF] at h3
    rw [h3]
    unfold Body.ownF
    dsimp only
    rw [ownM_blocks b _ hO, toBlocks_fromBlocks₁₁, add_mulVec, smul_mulVec, one_mulVec]
  · rw [← hM6, ownM_blocks b _ hO, fromBlocks_mulVec] at h4
    simp only [Sum.elim_comp_inl, Sum.elim_comp_inr, neg_mulVec, smul_mulVec, add_mulVec,
      ← mulVec_mulVec (M := b.OrMat * getH b.body_rCG * b.OrMatᵀ), rot_getH hO, hrc] at h4
    rw [h4, ← hM]
    rfl

variable {B : Body} {e : Env} {T : Set ℝ} {x : ℝ → V} {q : ℝ → Quat ℝ} {v w : ℝ → V}

/-- C102: what the energy of a free body in still water loses and gains.  Drag takes energy; the last term, for which there is no reason, appears
where the water that is carried does not move like the centre of gravity. -/
theorem C102_body_rate (h : Sails B e T x q v w) {t : ℝ} (ht : t ∈ T) :
    let b := moving B x q v w
    HasDerivAt (fun s => bodyEnergy (b s) e.rho_w e.g)
      ((b t).drag e.rho_w ⬝ᵥ v t + (b t).dragMoment e.rho_w ⬝ᵥ w t - v t ⬝ᵥ (addedMass (b t) e.rho_w *ᵥ (w t ⨯₃ velCG (b t)))) t := by
  intro b
  obtain ⟨a, al, hv, hw, hf⟩ := h.acc t ht
  have hO : (b t).OrMat ∈ Matrix.specialOrthogonalGroup (Fin 3) ℝ := by
    apply C62_orMat_rotation
    rw [C42_norm_constant w q h.turn t 0]
    exact h.start
  obtain ⟨e1, e2⟩ := bare_free (b t) e hO hf
  have hc : HasDerivAt (fun s => (b s).rCG) (w t ⨯₃ (b t).rCG) t := C42_angular_velocity w q h.turn h.start B.body_rCG t
  have hG : HasDerivAt (fun s => velCG (b s)) (a + (al ⨯₃ (b t).rCG + w t ⨯₃ (w t ⨯₃ (b t).rCG))) t := hv.add (Balance.deriv_cross hw hc)
  have hz : HasDerivAt (fun s => (b s).pos 2 + (b s).rCG 2) (v t 2 + (w t ⨯₃ (b t).rCG) 2) t :=
    (hasDerivAt_pi.1 (h.pos t ht) 2).add (hasDerivAt_pi.1 hc 2)
  have k1 := ((deriv_dot hG hG).const_mul (1 / 2 * B.bodyM))
  have k2 := (quad_deriv h.turn h.start B.bodyI hw).const_mul (1 / 2)
  have k3 := (quad_deriv h.turn h.start B.Ca hv).const_mul (1 / 2 * (B.bodyV * e.rho_w))
  have k4 := (quad_deriv h.turn h.start B.Car hw).const_mul (1 / 2 * (B.bodyV * e.rho_w))
  have k5 := hz.const_mul (B.bodyM * e.g - B.bodyV * e.rho_w * e.g)
  refine ((((k1.add k2).add k3).add k4).add k5).congr_deriv ?_
  have ww : w t ⨯₃ w t = 0 := cross_self _
  rw [ww, sub_zero]
  have d1 := congrArg (fun y => v t ⬝ᵥ y) e1
  have d2 := congrArg (fun y => w t ⬝ᵥ y) e2
  have hb1 : (b t).bodyM = B.bodyM := rfl
  have hb2 : (b t).w = w t := rfl
  have hb3 : (b t).v = v t := rfl
  have hb4 : (b t).bodyV = B.bodyV := rfl
  have hA : ∀ y, addedMass (b t) e.rho_w *ᵥ y = (B.bodyV * e.rho_w) • ((orMat (q t) * diagonal B.Ca * (orMat (q t))ᵀ) *ᵥ y) := fun y =>
    smul_mulVec _ _ _
  have hI : ∀ y, inertiaCG (b t) *ᵥ y = (orMat (q t) * diagonal B.bodyI * (orMat (q t))ᵀ) *ᵥ y := fun y => rfl
  have hR : ∀ y, ((b t).OrMat * diagonal (b t).Car * (b t).OrMatᵀ) *ᵥ y = (orMat (q t) * diagonal B.Car * (orMat (q t))ᵀ) *ᵥ y := fun y => rfl
  have hg : (b t).Fgrav e.rho_w e.g = ![0, 0, B.bodyV * e.rho_w * e.g - B.bodyM * e.g] := rfl
  have hV : velCG (b t) = v t + w t ⨯₃ (b t).rCG := rfl
  simp only [hA, hI, hR, hg, hb1, hb2, hb4, dotProduct_add, dotProduct_sub, dotProduct_neg, dotProduct_smul, smul_eq_mul] at d1 d2
  rw [hA, hV, dotProduct_comm ((b t).drag _), dotProduct_comm ((b t).dragMoment _), map_add, mulVec_add, mulVec_sub]
  simp only [dotProduct_add, dotProduct_sub, dotProduct_neg, dotProduct_smul, add_dotProduct, smul_add, smul_eq_mul]
  generalize (orMat (q t) * diagonal B.Ca * (orMat (q t))ᵀ) = A at *
  generalize (orMat (q t) * diagonal B.Car * (orMat (q t))ᵀ) *ᵥ al = r1 at *
  generalize (orMat (q t) * diagonal B.bodyI * (orMat (q t))ᵀ) *ᵥ al = r2 at *
  generalize v t ⬝ᵥ A *ᵥ a = s1 at *
  generalize v t ⬝ᵥ A *ᵥ (w t ⨯₃ (w t ⨯₃ (b t).rCG)) = s2 at *
  generalize v t ⬝ᵥ A *ᵥ (w t ⨯₃ v t) = s3 at *
  generalize w t ⬝ᵥ r1 = s4 at *
  generalize w t ⬝ᵥ r2 = s5 at *
  generalize v t ⬝ᵥ (b t).drag e.rho_w = s6 at *
  generalize w t ⬝ᵥ (b t).dragMoment e.rho_w = s7 at *
  generalize (b t).rCG = c at *
  generalize v t = v at *
  generalize w t = w at *
  simp [dotProduct, Fin.sum_univ_three, cross_apply] at d1 d2 ⊢
  linear_combination d1 + d2

theorem body_power {t : ℝ} (hO : orMat (q t) ∈ Matrix.specialOrthogonalGroup (Fin 3) ℝ) (hr : 0 ≤ e.rho_w) (h1 : ∀ i, 0 ≤ B.CdA i)
    (h2 : ∀ i, 0 ≤ B.CdAr i) (hA : B.Ca = 0 ∨ B.bodyV = 0 ∨ (B.body_rCG = 0 ∧ ∀ i j, B.Ca i = B.Ca j)) :
    let b := moving B x q v w t
    b.drag e.rho_w ⬝ᵥ v t + b.dragMoment e.rho_w ⬝ᵥ w t - v t ⬝ᵥ (addedMass b e.rho_w *ᵥ (w t ⨯₃ velCG b)) ≤ 0 := by
  intro b
  obtain ⟨p1, p2⟩ := C32_body_drag (moving B x q v w t) e.rho_w hr h1 h2
  have p3 : (moving B x q v w t).drag e.rho_w ⬝ᵥ v t ≤ 0 := by
    have e1 : (moving B x q v w t).U - (moving B x q v w t).v = -v t := zero_sub _
    rw [e1, dotProduct_neg] at p1
    linarith
  have p4 : (moving B x q v w t).dragMoment e.rho_w ⬝ᵥ w t ≤ 0 := p2
  have p5 : v t ⬝ᵥ (addedMass (moving B x q v w t) e.rho_w *ᵥ (w t ⨯₃ velCG (moving B x q v w t))) = 0 := by
    rcases hA with hA | hA | ⟨hA, hk⟩
    · have : addedMass (moving B x q v w t) e.rho_w = 0 := by
        unfold addedMass
        simp [moving, hA]
      rw [this, zero_mulVec, dotProduct_zero]
    · have : addedMass (moving B x q v w t) e.rho_w = 0 := by
        unfold addedMass
        simp [moving, hA]
      rw [this, zero_mulVec, dotProduct_zero]
    · have e1 : diagonal B.Ca = B.Ca 0 • (1 : M3 ℝ) := by
        rw [smul_one_eq_diagonal]
        congr 1
        funext i
        exact hk i 0
      have e2 : addedMass (moving B x q v w t) e.rho_w = (B.bodyV * e.rho_w * B.Ca 0) • (1 : M3 ℝ) := by
        unfold addedMass
        show (B.bodyV * e.rho_w) • (orMat (q t) * diagonal B.Ca * (orMat (q t))ᵀ) = _
        rw [e1, mul_smul_comm, mul_one, smul_mul_assoc, orth_right hO, smul_smul]
      have e3 : velCG (moving B x q v w t) = v t := by
        unfold velCG Body.rCG
        simp [moving, hA]
      rw [e2, e3, smul_mulVec, one_mulVec, dotProduct_smul, dot_cross_self, smul_zero]
  show _ - v t ⬝ᵥ (addedMass (moving B x q v w t) e.rho_w *ᵥ (w t ⨯₃ velCG (moving B x q v w t))) ≤ 0
  rw [p5, sub_zero]
  exact add_nonpos p3 p4

/-- C102: a free body in still water does not gain energy, if its added mass is the same in all directions and acts at the reference point, where the
centre of gravity is then, or if there is no added mass. -/
theorem C102_body_partial (h : Sails B e T x q v w) (hT : Convex ℝ T) (hr : 0 ≤ e.rho_w) (h1 : ∀ i, 0 ≤ B.CdA i) (h2 : ∀ i, 0 ≤ B.CdAr i)
    (hA : B.Ca = 0 ∨ B.bodyV = 0 ∨ (B.body_rCG = 0 ∧ ∀ i j, B.Ca i = B.Ca j)) :
    AntitoneOn (fun t => bodyEnergy (moving B x q v w t) e.rho_w e.g) T := by
  refine antitoneOn_of_deriv_nonpos hT (fun t ht => (C102_body_rate h ht).continuousAt.continuousWithinAt)
    (fun t ht => (C102_body_rate h (interior_subset ht)).differentiableAt.differentiableWithinAt) fun t ht => ?_
  rw [(C102_body_rate h (interior_subset ht)).deriv]
  have hO : orMat (q t) ∈ Matrix.specialOrthogonalGroup (Fin 3) ℝ := by
    apply C62_orMat_rotation
    rw [C42_norm_constant w q h.turn t 0]
    exact h.start
  exact body_power hO hr h1 h2 hA

/-! ## A body that gains energy -/

/-- A ball of neutral buoyancy, without drag, which carries water along one of its axes only. -/
noncomputable def ball (k : ℝ) : Body := ⟨1, 1, 0, ![1, 1, 1], 0, 0, ![k, 0, 0], 0, 0, 1, 0, 0, 0⟩

/-- It drifts and spins. -/
noncomputable def spin (t : ℝ) : Quat ℝ := ⟨Real.cos t, 0, 0, Real.sin t⟩

/-- Still water. -/
noncomputable def pool : Env := ⟨1, 1, 0, 0, 0, 0, 0, fun _ _ => -50, fun _ => 0, fun _ => 0, fun _ => 0, fun _ => 0⟩

theorem ball_sails (k : ℝ) : Sails (ball k) pool Set.univ (fun t => ![0, t, 0]) spin (fun _ => ![0, 1, 0]) fun _ => ![0, 0, 2] := by
  refine ⟨?_, ?_, ?_, ?_⟩
  · intro t _
    rw [hasDerivAt_pi]
    intro i
    fin_cases i
    · exact hasDerivAt_const t 0
    · exact hasDerivAt_id t
    · exact hasDerivAt_const t 0
  · intro t
    refine ⟨?_, ?_, ?_, ?_⟩
    · exact der (Real.hasDerivAt_cos t) (fun _ => rfl) (by simp [spin, quatRate, Quat.smul, Quat.mul])
    · exact der (hasDerivAt_const t 0) (fun _ => rfl) (by simp [spin, quatRate, Quat.smul, Quat.mul])
    · exact der (hasDerivAt_const t 0) (fun _ => rfl) (by simp [spin, quatRate, Quat.smul, Quat.mul])
    · exact der (Real.hasDerivAt_sin t) (fun _ => rfl) (by simp [spin, quatRate, Quat.smul, Quat.mul])
  · simp [spin, Quat.normSq]
  · intro t _
    refine ⟨0, 0, hasDerivAt_const t _, hasDerivAt_const t _, 0, 0,
      (moving (ball k) (fun t => ![0, t, 0]) spin (fun _ => ![0, 1, 0]) (fun _ => ![0, 0, 2]) t).ownM 1, ?_, by simp⟩
    · unfold Body.doRHS
      simp only [List.mapM_nil, List.map_nil, Option.pure_def, Option.map_some, addAll, Option.some.injEq, Prod.mk.injEq]
      refine ⟨?_, ?_, rfl⟩
      · unfold Body.ownF Body.drag Body.rCG Body.Fgrav
        simp [moving, ball, pool]
      · unfold Body.ownF Body.dragMoment Body.rCG Body.Fgrav
        simp [moving, ball, pool]

theorem ball_energy (k t : ℝ) : bodyEnergy (moving (ball k) (fun t => ![0, t, 0]) spin (fun _ => ![0, 1, 0]) (fun _ => ![0, 0, 2]) t) 1 1 =
    5 / 2 + 1 / 2 * k * (2 * Real.sin t * Real.cos t) ^ 2 := by
  have hn : (spin t).normSq = 1 := by
    have := Real.sin_sq_add_cos_sq t
    simp only [spin, Quat.normSq]
    linarith
  have hq : (spin t).normalized = spin t := by
    rw [Quat.normalized, hn]
    simp [Quat.smul]
  have hR : orMat (spin t) = (spin t).toMat := by rw [orMat, hq]
  unfold bodyEnergy
  simp only [quad_eq, moving, hR]
  simp [velCG, ball, Body.rCG, axis, Quat.toMat, spin, dotProduct, Fin.sum_univ_three, mulVec]
  ring

/-- C102 fails for bodies with added mass that is not the same in all directions: a ball that drifts and spins in still water. -/
theorem C102_body_false : ∃ (B : Body) (e : Env) (x : ℝ → V) (q : ℝ → Quat ℝ) (v w : ℝ → V) (t : ℝ),
    Sails B e Set.univ x q v w ∧ (∀ i, 0 ≤ B.CdA i ∧ 0 ≤ B.CdAr i ∧ 0 ≤ B.Ca i ∧ 0 ≤ B.Car i ∧ 0 < B.bodyI i) ∧ 0 < B.bodyM ∧ 0 < B.bodyV ∧ 0 < t ∧
    bodyEnergy (moving B x q v w 0) e.rho_w e.g < bodyEnergy (moving B x q v w t) e.rho_w e.g := by
  refine ⟨ball 1, pool, _, _, _, _, Real.pi / 4, ball_sails 1, ?_, one_pos, one_pos, by positivity, ?_⟩
  · intro i
    fin_cases i <;> simp [ball]
  · show bodyEnergy _ 1 1 < bodyEnergy _ 1 1
    rw [ball_energy, ball_energy, Real.sin_zero, Real.sin_pi_div_four, Real.cos_pi_div_four]
    have := Real.mul_self_sqrt (show (0 : ℝ) ≤ 2 by norm_num)
    nlinarith

/-! ## A rod that gains energy -/

/-- Deep space. -/
noncomputable def void : Env := ⟨0, 0, 0, 0, 0, 0, 0, fun _ _ => -50, fun _ => 0, fun _ => 0, fun _ => 0, fun _ => 0⟩

open Classical in
/-- Nothing acts on a rod there, and MoorDyn finds that end A goes on as before. -/
theorem void_free (R : Rods.Rod) (hR : Rods.Proper R) (hN : R.N = 1) (hA : R.attachedA = []) (hB : R.attachedB = []) : Rods.freeAcc R void 0 0 := by
  obtain ⟨ang, hang⟩ := Rods.angles_isSome hR
  have hr : void.rho_w = 0 := rfl
  have hF : ∀ i, Rods.Fnet R void ang.1 ang.2 i = 0 := by
    intro i
    have h1 : Rods.W R void i = 0 := by
      unfold Rods.W
      split_ifs
      · rfl
      · funext k
        fin_cases k <;> simp [void]
    have hp : ∀ j, void.pdyn j = 0 := fun _ => rfl
    have ha : ∀ F : ℝ, F = 0 → Rods.axial F ang.1 ang.2 = 0 := by
      rintro _ rfl
      unfold Rods.axial
      funext k
      fin_cases k <;> simp
    have h2 : Rods.Bo R void ang.1 ang.2 i = 0 := by
      unfold Rods.Bo Rods.BoSide Rods.BoA Rods.BoB
      rw [hr, ha _ (by ring), ha _ (by ring)]
      split_ifs <;> funext k <;> fin_cases k <;> simp
    have h3 : Rods.Dp R void ang.1 i = 0 := by unfold Rods.Dp; rw [hr]; split_ifs <;> simp
    have h4 : Rods.Dq R void ang.1 i = 0 := by unfold Rods.Dq; rw [hr]; split_ifs <;> simp
    have h5 : Rods.Ap R void ang.1 i = 0 := by unfold Rods.Ap; rw [hr]; split_ifs <;> simp
    have h6 : Rods.Aq R void ang.1 i = 0 := by unfold Rods.Aq; rw [hr]; split_ifs <;> simp
    have h7 : Rods.Pd R void ang.1 i = 0 := by unfold Rods.Pd; rw [hp]; split_ifs <;> simp
    have h8 : Rods.B R void i = 0 := by
      unfold Rods.B
      simp [void]
    have h9 : Rods.lineF R i = 0 := by unfold Rods.lineF; rw [hA, hB]; simp
    unfold Rods.Fnet
    rw [h1, h2, h3, h4, h5, h6, h7, h8, h9]
    simp
  have hM : Rods.Mext R void ang.1 ang.2 = 0 := by
    unfold Rods.Mext Rods.MextCap Rods.MextWater Rods.MextLine
    rw [hr, hA, hB]
    split_ifs <;> funext k <;> fin_cases k <;> simp
  have h6 : ∃ M6, Rods.M6net R void ang.1 ang.2 = some M6 := by
    unfold Rods.M6net Rods.inertiaCorrection
    rw [hN]
    exact ⟨_, rfl⟩
  obtain ⟨M6, h6⟩ := h6
  unfold Rods.freeAcc Rods.getNetForceAndMass
  rw [hang, Option.bind_some, h6]
  refine ⟨_, _, _, rfl, ?_⟩
  have hc : Rods.centripetal R void ang.1 (Rods.r R 0) 0 = 0 := by unfold Rods.centripetal; simp
  have h66 : Rods.F6net R void ang.1 ang.2 = (0, 0) := by
    unfold Rods.F6net
    simp [hF, hM]
  rw [hc, h66]
  simp

/-- A rod of one metre. -/
noncomputable def stick : Rods.Rod := ⟨1, 1, 1, 1, 1, 1, 1, 1, 1, 0, ![1, 0, 0], 0, 0, [], []⟩

theorem spin_unit (t : ℝ) : (spin t).normSq = 1 := by
  have := Real.sin_sq_add_cos_sq t
  simp only [spin, Quat.normSq]
  linarith

theorem spin_turn : Evolves (fun _ => ![0, 0, 2]) spin := (ball_sails 0).turn

theorem spin_axis (t : ℝ) : orMat (spin t) *ᵥ ![1, 0, 0] = ![1 - 2 * Real.sin t ^ 2, 2 * Real.sin t * Real.cos t, 0] := by
  have hq : (spin t).normalized = spin t := by
    rw [Quat.normalized, spin_unit]
    simp [Quat.smul]
  rw [orMat, hq]
  ext i
  fin_cases i <;> simp [Quat.toMat, spin, mulVec, dotProduct, Fin.sum_univ_three] <;> ring

/-- C102 fails for rods: a rod in deep space which turns about its centre, which is at rest, moves off half a turn later.  The centripetal
acceleration is left out (C67). -/
theorem C102_rod_false : ∃ (R : Rods.Rod) (x : ℝ → V) (q : ℝ → Quat ℝ) (v w : ℝ → V) (t : ℝ),
    RodSails R void Set.univ x q v w ∧ Rods.Proper R ∧ 0 < R.rho ∧ 0 < t ∧
    rodEnergy (movingRod R x q v w 0) 0 < rodEnergy (movingRod R x q v w t) 0 := by
  have hax : ∀ t, orMat (spin t) *ᵥ stick.q = ![1 - 2 * Real.sin t ^ 2, 2 * Real.sin t * Real.cos t, 0] := spin_axis
  have hP : Rods.Proper stick := by
    refine ⟨?_, ?_, ?_, ?_⟩ <;> simp [stick, dotProduct, Fin.sum_univ_three]
  refine ⟨stick, fun t => ![0, -t, 0], spin, fun _ => ![0, -1, 0], fun _ => ![0, 0, 2], Real.pi / 2, ⟨?_, spin_turn, ?_, ?_⟩, hP, one_pos,
    by positivity, ?_⟩
  · intro t _
    rw [hasDerivAt_pi]
    intro i
    fin_cases i
    · exact hasDerivAt_const t 0
    · exact (hasDerivAt_id t).neg
    · exact hasDerivAt_const t 0
  · rw [spin_unit]
    exact one_pos
  · intro t _
    refine ⟨0, 0, hasDerivAt_const t _, hasDerivAt_const t _, void_free _ ⟨hP.hN, hP.hL, hP.hd, ?_⟩ rfl rfl rfl⟩
    show (orMat (spin t) *ᵥ stick.q) ⬝ᵥ (orMat (spin t) *ᵥ stick.q) = 1
    rw [hax]
    have := Real.sin_sq_add_cos_sq t
    simp [dotProduct, Fin.sum_univ_three]
    have h2 : Real.cos t ^ 2 = 1 - Real.sin t ^ 2 := by linarith
    linear_combination 4 * Real.sin t ^ 2 * h2
  · unfold rodEnergy
    simp only [movingRod, hax]
    have := Real.pi_pos
    simp [stick, dotProduct, Fin.sum_univ_three, cross_apply]
    norm_num
    linarith

/-- A body of neutral buoyancy that is slowed down by drag. -/
noncomputable def buoy : Body := ⟨1, 1, 0, ![1, 1, 1], ![2, 0, 0], 0, 0, 0, 0, 1, 0, 0, 0⟩

/-- The hypotheses of `C102_body_rate` and `C102_body_partial`. -/
example : Sails buoy pool (Set.Ici 0) (fun t => ![Real.log (1 + t), 0, 0]) (fun _ => Quat.one) (fun t => ![1 / (1 + t), 0, 0]) (fun _ => 0) ∧
    buoy.Ca = 0 ∧ (∀ i, 0 ≤ buoy.CdA i) := by
  refine ⟨⟨?_, ?_, ?_, ?_⟩, rfl, ?_⟩
  · intro t ht
    have h0 : 0 < 1 + t := by
      have : 0 ≤ t := ht
      linarith
    rw [hasDerivAt_pi]
    intro i
    fin_cases i
    · exact ((hasDerivAt_id t).const_add 1).log h0.ne'
    · exact hasDerivAt_const t 0
    · exact hasDerivAt_const t 0
  · intro t
    refine ⟨?_, ?_, ?_, ?_⟩ <;> exact der (hasDerivAt_const t _) (fun _ => rfl) (by simp [quatRate, Quat.smul, Quat.mul])
  · simp [Quat.one, Quat.normSq]
  · intro t ht
    have h0 : 0 < 1 + t := by
      have : 0 ≤ t := ht
      linarith
    have hO : orMat Quat.one = 1 := by
      unfold orMat Quat.normalized
      ext i j
      fin_cases i <;> fin_cases j <;> simp [Quat.one, Quat.normSq, Quat.smul, Quat.toMat]
    refine ⟨![-1 / (1 + t) ^ 2, 0, 0], 0, ?_, hasDerivAt_const t _, ![-1 / (1 + t) ^ 2, 0, 0], 0, fromBlocks 1 0 0 1, ?_, ?_⟩
    · rw [hasDerivAt_pi]
      intro i
      fin_cases i
      · have := ((hasDerivAt_id t).const_add 1).inv h0.ne'
        refine der this (fun y => one_div _) rfl
      · exact hasDerivAt_const t 0
      · exact hasDerivAt_const t 0
    · unfold Body.doRHS
      simp only [List.mapM_nil, List.map_nil, Option.pure_def, Option.map_some, addAll, Option.some.injEq, Prod.mk.injEq]
      refine ⟨?_, ?_, ?_⟩
      · unfold Body.ownF Body.drag Body.rCG Body.Fgrav
        simp [moving, buoy, pool, hO, Mooring.norm, dotProduct, Fin.sum_univ_three]
        rw [Real.sqrt_mul_self (inv_nonneg.2 h0.le)]
        simp only [vecHead, vecTail, Pi.smul_apply, mulVec_diagonal, Function.comp, smul_eq_mul]
        refine ⟨?_, ?_, ?_⟩
        · simp
          field_simp
        · simp
        · simp
      · unfold Body.ownF Body.dragMoment Body.rCG Body.Fgrav
        simp [moving, buoy, pool]
      · unfold Body.ownM Body.M0 rotateMass6 rotateMass translateMass6
        simp [moving, buoy, pool, hO]
        have g0 : getH (0 : V) = 0 := by
          ext i j
          fin_cases i <;> fin_cases j <;> simp [getH]
        have d1 : (diagonal ![1, 1, 1] : M3 ℝ) = 1 := by
          ext i j
          fin_cases i <;> fin_cases j <;> simp
        rw [g0, d1]
        simp
    · simp [fromBlocks_one]
  · intro i
    fin_cases i <;> simp [buoy]

end MD.Energy
