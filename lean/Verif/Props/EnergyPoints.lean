import Verif.Props.EnergyBody

/-!
# C102: the energy of bodies with points
-/

set_option linter.unusedSimpArgs false
set_option linter.unusedSectionVars false
set_option linter.unusedVariables false

namespace MD.Energy

open Matrix MD.Mat MD.Rot MD.Mooring MD.Bodies

/-! ## Specification -/

/-- The point `c.2`, at the place `c.1` of the body, where the body takes it in still water. -/
def rider (b : Body) (c : V × Point) : Point := { b.setPoint c.1 c.2 with U := 0 }

/-- The motion of a free body with points: at the times `T` the rates are those that MoorDyn computes. -/
structure Carries (B : Body) (P : List (V × Point)) (e : Env) (T : Set ℝ) (x : ℝ → V) (q : ℝ → Quat ℝ) (v w : ℝ → V) : Prop where
  pos : ∀ t ∈ T, HasDerivAt x (v t) t
  turn : Evolves w q
  start : 0 < (q 0).normSq
  acc : ∀ t ∈ T, ∃ a al, HasDerivAt v a t ∧ HasDerivAt w al t ∧
    (moving B x q v w t).freeAcc e (P.map (rider (moving B x q v w t))) [] a al

/-- Energy of the body and of its points. -/
noncomputable def loadedEnergy (b : Body) (P : List (V × Point)) (e : Env) : ℝ :=
  bodyEnergy b e.rho_w e.g + (P.map fun c => pointEnergy (rider b c) e).sum

/-! ## Power -/

/-- What force and moment `X` lack to move the mass `X` with the accelerations `a`, `al`, times the velocities. -/
noncomputable def lack (v w a al : V) (X : V × V × M6 ℝ) : ℝ :=
  v ⬝ᵥ ((X.2.2 *ᵥ Sum.elim a al) ∘ Sum.inl - X.1) + w ⬝ᵥ ((X.2.2 *ᵥ Sum.elim a al) ∘ Sum.inr - X.2.1)

theorem lack_add (v w a al : V) (X Y : V × V × M6 ℝ) :
    lack v w a al (X.1 + Y.1, X.2.1 + Y.2.1, X.2.2 + Y.2.2) = lack v w a al X + lack v w a al Y := by
  unfold lack
  simp only [add_mulVec, dotProduct_sub, dotProduct_add]
  have h : ∀ (x y : V6 ℝ) (f : Fin 3 → Fin 3 ⊕ Fin 3), (x + y) ∘ f = x ∘ f + y ∘ f := fun _ _ _ => rfl
  simp only [h, dotProduct_add]
  ring

theorem lack_addAll (v w a al : V) (l : List (V × V × M6 ℝ)) (acc : V × V × M6 ℝ) :
    lack v w a al (addAll l acc) = lack v w a al acc + (l.map (lack v w a al)).sum := by
  induction l generalizing acc with
  | nil => simp [addAll]
  | cons X l ih =>
    rw [addAll, ih, List.map_cons, List.sum_cons, ← add_assoc]
    congr 1
    exact lack_add _ _ _ _ acc X

theorem free_lack {b : Body} {e : Env} {ps : List Point} {a al : V} (v w : V) (h : b.freeAcc e ps [] a al) :
    lack v w a al ((b.ownF e.rho_w e.g).1, (b.ownF e.rho_w e.g).2, b.ownM e.rho_w) +
      (ps.map fun p => lack v w a al (p.getNetForceAndMass e.rho_w e.g b.pos b.w)).sum = 0 := by
  obtain ⟨F, Mo, M, h1, h2⟩ := h
  unfold Body.doRHS at h1
  simp only [List.mapM_nil, Option.pure_def, Option.map_some, addAll, Option.some.injEq] at h1
  have h3 := lack_addAll v w a al (ps.map fun p => p.getNetForceAndMass e.rho_w e.g b.pos b.w)
    ((b.ownF e.rho_w e.g).1, (b.ownF e.rho_w e.g).2, b.ownM e.rho_w)
  rw [List.map_map] at h3
  have h4 : lack v w a al (F, Mo, M) = 0 := by
    unfold lack
    rw [h2]
    simp
  rw [h1, h4] at h3
  exact h3.symm

theorem own_rows (b : Body) (e : Env) (hO : b.OrMat ∈ Matrix.specialOrthogonalGroup (Fin 3) ℝ) (a al : V) :
    (b.ownM e.rho_w *ᵥ Sum.elim a al) ∘ Sum.inl - (b.ownF e.rho_w e.g).1 =
      b.bodyM • (a + al ⨯₃ b.rCG) + addedMass b e.rho_w *ᵥ a -
      (b.Fgrav e.rho_w e.g - (b.bodyM • (b.w ⨯₃ (b.w ⨯₃ b.rCG)) + addedMass b e.rho_w *ᵥ (b.w ⨯₃ (b.w ⨯₃ b.rCG))) + b.drag e.rho_w) ∧
    (b.ownM e.rho_w *ᵥ Sum.elim a al) ∘ Sum.inr - (b.ownF e.rho_w e.g).2 =
      -(b.bodyM • (a ⨯₃ b.rCG)) + (-(b.bodyM • ((al ⨯₃ b.rCG) ⨯₃ b.rCG)) + inertiaCG b *ᵥ al +
      (b.bodyV * e.rho_w) • ((b.OrMat * diagonal b.Car * b.OrMatᵀ) *ᵥ al)) - (b.rCG ⨯₃ b.Fgrav e.rho_w e.g + b.dragMoment e.rho_w) := by
  have hrc : b.OrMat *ᵥ b.body_rCG = b.rCG := rfl
  constructor
  · rw [ownM_row b _ hO]
    unfold Body.ownF
    dsimp only
    rw [ownM_blocks b _ hO, toBlocks_fromBlocks₁₁, add_mulVec, smul_mulVec, one_mulVec]
  · rw [ownM_blocks b _ hO, fromBlocks_mulVec]
    simp only [Sum.elim_comp_inl, Sum.elim_comp_inr, neg_mulVec, smul_mulVec, add_mulVec,
      ← mulVec_mulVec (M := b.OrMat * getH b.body_rCG * b.OrMatᵀ), rot_getH hO, hrc]
    rfl

variable {B : Body} {P : List (V × Point)} {e : Env} {T : Set ℝ} {x : ℝ → V} {q : ℝ → Quat ℝ} {v w : ℝ → V}

theorem own_power (hp : ∀ t ∈ T, HasDerivAt x (v t) t) (hturn : Evolves w q) (h0 : 0 < (q 0).normSq) {t : ℝ} (ht : t ∈ T) {a al : V}
    (hv : HasDerivAt v a t) (hw : HasDerivAt w al t) :
    let b := moving B x q v w
    HasDerivAt (fun s => bodyEnergy (b s) e.rho_w e.g)
      ((b t).drag e.rho_w ⬝ᵥ v t + (b t).dragMoment e.rho_w ⬝ᵥ w t - v t ⬝ᵥ (addedMass (b t) e.rho_w *ᵥ (w t ⨯₃ velCG (b t))) +
        lack (v t) (w t) a al (((b t).ownF e.rho_w e.g).1, ((b t).ownF e.rho_w e.g).2, (b t).ownM e.rho_w)) t := by
  intro b
  have hO : (b t).OrMat ∈ Matrix.specialOrthogonalGroup (Fin 3) ℝ := by
    apply C62_orMat_rotation
    rw [C42_norm_constant w q hturn t 0]
    exact h0
  obtain ⟨e1, e2⟩ := own_rows (b t) e hO a al
  have hc : HasDerivAt (fun s => (b s).rCG) (w t ⨯₃ (b t).rCG) t := C42_angular_velocity w q hturn h0 B.body_rCG t
  have hG : HasDerivAt (fun s => velCG (b s)) (a + (al ⨯₃ (b t).rCG + w t ⨯₃ (w t ⨯₃ (b t).rCG))) t := hv.add (Balance.deriv_cross hw hc)
  have hz : HasDerivAt (fun s => (b s).pos 2 + (b s).rCG 2) (v t 2 + (w t ⨯₃ (b t).rCG) 2) t :=
    (hasDerivAt_pi.1 (hp t ht) 2).add (hasDerivAt_pi.1 hc 2)
  have k1 := ((deriv_dot hG hG).const_mul (1 / 2 * B.bodyM))
  have k2 := (quad_deriv hturn h0 B.bodyI hw).const_mul (1 / 2)
  have k3 := (quad_deriv hturn h0 B.Ca hv).const_mul (1 / 2 * (B.bodyV * e.rho_w))
  have k4 := (quad_deriv hturn h0 B.Car hw).const_mul (1 / 2 * (B.bodyV * e.rho_w))
  have k5 := hz.const_mul (B.bodyM * e.g - B.bodyV * e.rho_w * e.g)
  refine ((((k1.add k2).add k3).add k4).add k5).congr_deriv ?_
  have ww : w t ⨯₃ w t = 0 := cross_self _
  rw [ww, sub_zero]
  unfold lack
  dsimp only
  rw [e1, e2]
  have hb1 : (b t).bodyM = B.bodyM := rfl
  have hb2 : (b t).w = w t := rfl
  have hb3 : (b t).v = v t := rfl
  have hb4 : (b t).bodyV = B.bodyV := rfl
  have hA : ∀ y, addedMass (b t) e.rho_w *ᵥ y = (B.bodyV * e.rho_w) • ((orMat (q t) * diagonal B.Ca * (orMat (q t))ᵀ) *ᵥ y) := fun y =>
    smul_mulVec _ _ _
  have hI : ∀ y, inertiaCG (b t) *ᵥ y = (orMat (q t) * diagonal B.bodyI * (orMat (q t))ᵀ) *ᵥ y := fun y => rfl
  have hR : ∀ y, ((b t).OrMat * diagonal (b t).Car * (b t).OrMatᵀ) *ᵥ y = (orMat (q t) * diagonal B.Car * (orMat (q t))ᵀ) *ᵥ y := fun y => rfl
  have hg : (b t).Fgrav e.rho_w e.g = ![0, 0, B.bodyV * e.rho_w * e.g - B.bodyM * e.g] := rfl
  have hV : velCG (b t) = v t + w t ⨯₃ (b t).rCG := rfl
  rw [hA, hV, dotProduct_comm ((b t).drag _), dotProduct_comm ((b t).dragMoment _), map_add, mulVec_add, mulVec_sub]
  simp only [hA, hI, hR, hg, hb1, hb2, hb4, dotProduct_add, dotProduct_sub, dotProduct_neg, dotProduct_smul, add_dotProduct, smul_add, smul_eq_mul]
  generalize (orMat (q t) * diagonal B.Ca * (orMat (q t))ᵀ) = A at *
  generalize (orMat (q t) * diagonal B.Car * (orMat (q t))ᵀ) *ᵥ al = r1 at *
  generalize (orMat (q t) * diagonal B.bodyI * (orMat (q t))ᵀ) *ᵥ al = r2 at *
  generalize v t ⬝ᵥ A *ᵥ a = s1 at *
  generalize v t ⬝ᵥ A *ᵥ (w t ⨯₃ (w t ⨯₃ (b t).rCG)) = s2 at *
  generalize v t ⬝ᵥ A *ᵥ (w t ⨯₃ v t) = s3 at *
  generalize w t ⬝ᵥ r1 = s4 at *
  generalize w t ⬝ᵥ r2 = s5 at *
  generalize v t ⬝ᵥ (b t).drag e.rho_w = s6 at *
  generalize w t ⬝ᵥ (b t).dragMoment e.rho_w = s7 at *
  generalize (b t).rCG = c at *
  generalize v t = v at *
  generalize w t = w at *
  simp [dotProduct, Fin.sum_univ_three, cross_apply, vecHead, vecTail]
  ring

theorem point_lack (p : Point) (hp : p.attached = []) (rho g : ℝ) (o v w a al : V) :
    lack v w a al (p.getNetForceAndMass rho g o w) =
      (v + w ⨯₃ (p.r - o)) ⬝ᵥ ((p.pointM + p.pointCa * (rho * p.pointV)) • (a + (al ⨯₃ (p.r - o) + w ⨯₃ (w ⨯₃ (p.r - o)))) - pointLoads p rho g) := by
  unfold Point.getNetForceAndMass lack translateMass
  simp only [C40_net_force, C40_mass, hp, List.map_nil, List.sum_nil, zero_add]
  generalize pointLoads p rho g = F
  generalize p.pointM + p.pointCa * (rho * p.pointV) = μ
  generalize p.r - o = r
  rw [fromBlocks_mulVec]
  simp only [Sum.elim_comp_inl, Sum.elim_comp_inr, smul_mul_assoc, one_mul, mul_smul_comm, mul_one, transpose_smul, smul_mulVec, one_mulVec,
    ← mulVec_mulVec, getH_transpose, neg_mulVec, mulVec_neg, Mat.getH_mulVec, smul_mul_assoc, Matrix.mul_neg]
  simp [dotProduct, Fin.sum_univ_three, cross_apply, vecHead, vecTail]
  ring

theorem point_power (hx : ∀ t ∈ T, HasDerivAt x (v t) t) (hturn : Evolves w q) (h0 : 0 < (q 0).normSq) {t : ℝ} (ht : t ∈ T) {a al : V}
    (hv : HasDerivAt v a t) (hw : HasDerivAt w al t) (c : V × Point) (hc : c.2.attached = []) :
    let b := moving B x q v w
    HasDerivAt (fun s => pointEnergy (rider (b s) c) e)
      (quadDrag e.rho_w c.2.pointCdA (-(rider (b t) c).rd) ⬝ᵥ (rider (b t) c).rd +
        lack (v t) (w t) a al ((rider (b t) c).getNetForceAndMass e.rho_w e.g (b t).pos (b t).w)) t := by
  intro b
  obtain ⟨rel, p⟩ := c
  have hρ : HasDerivAt (fun s => orMat (q s) *ᵥ rel) (w t ⨯₃ (orMat (q t) *ᵥ rel)) t := C42_angular_velocity w q hturn h0 rel t
  have hr : HasDerivAt (fun s => (rider (b s) (rel, p)).r) (w t ⨯₃ (orMat (q t) *ᵥ rel) + v t) t := hρ.add (hx t ht)
  have hd : HasDerivAt (fun s => (rider (b s) (rel, p)).rd) (a + (al ⨯₃ (orMat (q t) *ᵥ rel) + w t ⨯₃ (w t ⨯₃ (orMat (q t) *ᵥ rel)))) t :=
    hv.add (Balance.deriv_cross hw hρ)
  have h1 := (deriv_dot hd hd).const_mul (1 / 2 * (p.pointM + p.pointV * e.rho_w * p.pointCa))
  have h2 := (hasDerivAt_pi.1 hr 2).const_mul (e.g * (p.pointM - p.pointV * e.rho_w))
  have h3 := deriv_dot (hasDerivAt_const t p.pointF) hr
  refine ((h1.add h2).sub h3).congr_deriv ?_
  have e3 : (b t).w = w t := rfl
  rw [e3, point_lack (rider (b t) (rel, p)) hc]
  have e1 : (rider (b t) (rel, p)).r - (b t).pos = orMat (q t) *ᵥ rel := add_sub_cancel_right _ _
  have e2 : (rider (b t) (rel, p)).rd = v t + w t ⨯₃ (orMat (q t) *ᵥ rel) := rfl
  have e4 : pointLoads (rider (b t) (rel, p)) e.rho_w e.g = p.pointF + ![0, 0, -(p.pointM * e.g)] + ![0, 0, e.rho_w * e.g * p.pointV] +
      quadDrag e.rho_w p.pointCdA (-(rider (b t) (rel, p)).rd) := by
    rw [← zero_sub (rider (b t) (rel, p)).rd]
    rfl
  have e5 : (rider (b t) (rel, p)).pointM = p.pointM ∧ (rider (b t) (rel, p)).pointCa = p.pointCa ∧ (rider (b t) (rel, p)).pointV = p.pointV :=
    ⟨rfl, rfl, rfl⟩
  rw [e4, e1, e5.1, e5.2.1, e5.2.2, e2]
  dsimp only
  generalize quadDrag e.rho_w p.pointCdA _ = D
  generalize orMat (q t) *ᵥ rel = ρ
  generalize v t = v
  generalize w t = w
  simp [dotProduct, Fin.sum_univ_three, cross_apply, vecHead, vecTail]
  ring

theorem sum_nonpos : ∀ l : List ℝ, (∀ y ∈ l, y ≤ 0) → l.sum ≤ 0
  | [], _ => le_refl 0
  | y :: l, h => by
    rw [List.sum_cons]
    exact add_nonpos (h y List.mem_cons_self) (sum_nonpos l fun z hz => h z (List.mem_cons_of_mem _ hz))

/-! ## C102 -/

/-- C102: what the energy of a free body with points in still water loses and gains. -/
theorem C102_points_rate (h : Carries B P e T x q v w) (hP : ∀ c ∈ P, c.2.attached = []) {t : ℝ} (ht : t ∈ T) :
    let b := moving B x q v w
    HasDerivAt (fun s => loadedEnergy (b s) P e)
      ((b t).drag e.rho_w ⬝ᵥ v t + (b t).dragMoment e.rho_w ⬝ᵥ w t - v t ⬝ᵥ (addedMass (b t) e.rho_w *ᵥ (w t ⨯₃ velCG (b t))) +
        (P.map fun c => quadDrag e.rho_w c.2.pointCdA (-(rider (b t) c).rd) ⬝ᵥ (rider (b t) c).rd).sum) t := by
  intro b
  obtain ⟨a, al, hv, hw, hf⟩ := h.acc t ht
  have h1 := own_power (B := B) (e := e) h.pos h.turn h.start ht hv hw
  have h2 := free_lack (v t) (w t) hf
  have h3 : ∀ Q : List (V × Point), (∀ c ∈ Q, c.2.attached = []) → HasDerivAt (fun s => (Q.map fun c => pointEnergy (rider (b s) c) e).sum)
      ((Q.map fun c => quadDrag e.rho_w c.2.pointCdA (-(rider (b t) c).rd) ⬝ᵥ (rider (b t) c).rd).sum +
        (Q.map fun c => lack (v t) (w t) a al ((rider (b t) c).getNetForceAndMass e.rho_w e.g (b t).pos (b t).w)).sum) t := by
    intro Q hQ
    induction Q with
    | nil => simpa using hasDerivAt_const t (0 : ℝ)
    | cons c Q ih =>
      simp only [List.map_cons, List.sum_cons]
      refine ((point_power (B := B) (e := e) h.pos h.turn h.start ht hv hw c (hQ c List.mem_cons_self)).add
        (ih fun c hc => hQ c (List.mem_cons_of_mem _ hc))).congr_deriv ?_
      ring
  refine (h1.add (h3 P hP)).congr_deriv ?_
  rw [List.map_map] at h2
  simp only [Function.comp_def] at h2
  linarith

/-- C102: a free body with points in still water does not gain energy, if its added mass is the same in all directions and acts at the reference
point, where the centre of gravity of the body itself is then, or if the body has no added mass.  The points may have any added mass and be anywhere. -/
theorem C102_points_partial (h : Carries B P e T x q v w) (hP : ∀ c ∈ P, c.2.attached = [] ∧ 0 ≤ c.2.pointCdA) (hT : Convex ℝ T)
    (hr : 0 ≤ e.rho_w) (h1 : ∀ i, 0 ≤ B.CdA i) (h2 : ∀ i, 0 ≤ B.CdAr i)
    (hA : B.Ca = 0 ∨ B.bodyV = 0 ∨ (B.body_rCG = 0 ∧ ∀ i j, B.Ca i = B.Ca j)) :
    AntitoneOn (fun t => loadedEnergy (moving B x q v w t) P e) T := by
  have hP' := fun c hc => (hP c hc).1
  refine antitoneOn_of_deriv_nonpos hT (fun t ht => (C102_points_rate h hP' ht).continuousAt.continuousWithinAt)
    (fun t ht => (C102_points_rate h hP' (interior_subset ht)).differentiableAt.differentiableWithinAt) fun t ht => ?_
  rw [(C102_points_rate h hP' (interior_subset ht)).deriv]
  have hO : orMat (q t) ∈ Matrix.specialOrthogonalGroup (Fin 3) ℝ := by
    apply C62_orMat_rotation
    rw [C42_norm_constant w q h.turn t 0]
    exact h.start
  have k := body_power (x := x) (v := v) (w := w) hO hr h1 h2 hA
  refine add_nonpos k (sum_nonpos _ ?_)
  intro y hy
  obtain ⟨c, hc, rfl⟩ := List.mem_map.1 hy
  have := C32_point_drag e.rho_w c.2.pointCdA hr (hP c hc).2 (-(rider (moving B x q v w t) c).rd)
  rw [dotProduct_neg] at this
  linarith

/-! ## Example -/

/-- A dumb-bell: a small body without water around it between two neutral points. -/
noncomputable def bell : List (V × Point) :=
  [(![1, 0, 0], ⟨1, 1, 0, 0, 1, 0, 0, 0, []⟩), (![-1, 0, 0], ⟨1, 1, 0, 0, 1, 0, 0, 0, []⟩)]

theorem coasts (b : Body) (e : Env) (ps : List Point)
    (hF : (b.ownF e.rho_w e.g).1 + (ps.map fun p => (p.getNetForceAndMass e.rho_w e.g b.pos b.w).1).sum = 0)
    (hM : (b.ownF e.rho_w e.g).2 + (ps.map fun p => (p.getNetForceAndMass e.rho_w e.g b.pos b.w).2.1).sum = 0) : b.freeAcc e ps [] 0 0 := by
  refine ⟨0, 0, (addAll (ps.map fun p => p.getNetForceAndMass e.rho_w e.g b.pos b.w) ((b.ownF e.rho_w e.g).1, (b.ownF e.rho_w e.g).2, b.ownM e.rho_w)).2.2,
    ?_, by simp⟩
  unfold Body.doRHS
  simp only [List.mapM_nil, Option.pure_def, Option.map_some, addAll, Option.some.injEq]
  refine Prod.ext ?_ (Prod.ext ?_ rfl)
  · rw [addAll_eq, List.map_map]
    exact hF
  · simp only [addAll_eq, List.map_map]
    exact hM

theorem spin_mat (t : ℝ) : orMat (spin t) = (spin t).toMat := by
  have hn : (spin t).normSq = 1 := by
    have := Real.sin_sq_add_cos_sq t
    simp only [spin, Quat.normSq]
    linarith
  rw [orMat, Quat.normalized, hn]
  simp [Quat.smul]

/-- It spins. -/
example : Carries (ball 0) bell pool Set.univ (fun _ => 0) spin (fun _ => 0) (fun _ => ![0, 0, 2]) ∧
    (∀ c ∈ bell, c.2.attached = [] ∧ 0 ≤ c.2.pointCdA) ∧
    ((bell.map fun c => (rider (moving (ball 0) (fun _ => 0) spin (fun _ => 0) (fun _ => ![0, 0, 2]) 0) c).rd) = [![0, 2, 0], ![0, -2, 0]]) := by
  refine ⟨⟨fun t _ => hasDerivAt_const t 0, (ball_sails 0).turn, (ball_sails 0).start, ?_⟩, ?_, ?_⟩
  · intro t _
    refine ⟨0, 0, hasDerivAt_const t _, hasDerivAt_const t _, ?_⟩
    have hl : ∀ r : V, pointLoads (rider (moving (ball 0) (fun _ => 0) spin (fun _ => 0) (fun _ => ![0, 0, 2]) t) (r, ⟨1, 1, 0, 0, 1, 0, 0, 0, []⟩))
        pool.rho_w pool.g = 0 := by
      intro r
      simp [pointLoads, rider, Body.setPoint, quadDrag, pool, transformKinematics]
    apply coasts
    · simp only [bell, List.map_cons, List.map_nil, List.sum_cons, List.sum_nil, Point.getNetForceAndMass, C40_net_force, C40_mass, hl]
      unfold Body.ownF Body.drag Body.rCG Body.Fgrav
      have hm : (![-1, 0, 0] : V) = -![1, 0, 0] := by simp
      simp only [hm]
      generalize (![1, 0, 0] : V) = u
      simp [moving, ball, pool, rider, Body.setPoint, transformKinematics, mulVec_neg, -cross_anticomm]
    · simp only [bell, List.map_cons, List.map_nil, List.sum_cons, List.sum_nil, Point.getNetForceAndMass, C40_net_force, C40_mass, hl]
      unfold Body.ownF Body.dragMoment Body.rCG Body.Fgrav
      simp [moving, ball, pool, rider, Body.setPoint]
  · intro c hc
    simp only [bell, List.mem_cons, List.not_mem_nil, or_false] at hc
    rcases hc with rfl | rfl <;> exact ⟨rfl, le_refl 0⟩
  · simp only [bell, List.map_cons, List.map_nil, rider, Body.setPoint, transformKinematics, moving, spin_mat]
    simp [spin, Quat.toMat, cross_apply]

end MD.Energy
