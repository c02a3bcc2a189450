import Verif.Props.Body

/-!
# Bodies: Newton's second law (C67), reaction of coupled bodies (C69), pinned rods (C68)
-/

set_option linter.unusedSimpArgs false
set_option linter.unusedVariables false

namespace MD.Bodies

open Matrix MD.Mat MD.Rot MD.Mooring MD.Rods Finset

/-! ## Specification -/

/-- Mass matrix added by the water to the body, in global axes -/
noncomputable def addedMass (b : Body) (rho_w : ℝ) : M3 ℝ :=
  (b.bodyV * rho_w) • (b.OrMat * diagonal b.Ca * b.OrMatᵀ)

/-- Inertia of the body about its centre of gravity, in global axes -/
noncomputable def inertiaCG (b : Body) : M3 ℝ := b.OrMat * diagonal b.bodyI * b.OrMatᵀ

/-- Rate of momentum of the points and rods of a body in a rigid motion: mass (with the masses
which water and lines add) times acceleration, for each point and each node of each rod -/
noncomputable def attachedInertia (e : Env) (points : List Point) (rods : List Rod)
    (a al w o : V) : V :=
  (points.map fun p => (p.doRHS e.rho_w e.g).2 *ᵥ rigidAcc a al w o p.r).sum
    + (rods.map fun R => ∑ i ∈ range (R.N + 1),
        Rods.M R e ((angles R).getD 0).1 i *ᵥ rigidAcc a al w o (Rods.r R i)).sum

/-- Forces on the points and rods of a body -/
noncomputable def attachedForce (e : Env) (points : List Point) (rods : List Rod) : V :=
  (points.map fun p => (p.doRHS e.rho_w e.g).1).sum
    + (rods.map fun R => ∑ i ∈ range (R.N + 1),
        Rods.Fnet R e ((angles R).getD 0).1 ((angles R).getD 0).2 i).sum

/-! ## Lemmas -/

theorem rot_cross {R : M3 ℝ} (h : R ∈ Matrix.specialOrthogonalGroup (Fin 3) ℝ) (u v : V) :
    R *ᵥ (u ⨯₃ v) = (R *ᵥ u) ⨯₃ (R *ᵥ v) := by
  have h1 : R * Rᵀ = 1 := by
    have := (mem_orthogonalGroup_iff (Fin 3) ℝ).1 (mem_specialOrthogonalGroup_iff.1 h).1
    simpa [star_eq_conjTranspose] using this
  have h2 := (mem_specialOrthogonalGroup_iff.1 h).2
  have key : Rᵀ *ᵥ ((R *ᵥ u) ⨯₃ (R *ᵥ v)) = R.det • (u ⨯₃ v) := by
    funext k
    fin_cases k <;>
      simp [Matrix.mulVec, dotProduct, Fin.sum_univ_three, cross_apply, det_fin_three] <;> ring
  rw [h2, one_smul] at key
  rw [← key, mulVec_mulVec, h1, one_mulVec]

theorem orth_right {R : M3 ℝ} (h : R ∈ Matrix.specialOrthogonalGroup (Fin 3) ℝ) : R * Rᵀ = 1 := by
  have := (mem_orthogonalGroup_iff (Fin 3) ℝ).1 (mem_specialOrthogonalGroup_iff.1 h).1
  simpa [star_eq_conjTranspose] using this

theorem rot_getH {R : M3 ℝ} (h : R ∈ Matrix.specialOrthogonalGroup (Fin 3) ℝ) (c x : V) :
    (R * getH c * Rᵀ) *ᵥ x = x ⨯₃ (R *ᵥ c) := by
  rw [← mulVec_mulVec, ← mulVec_mulVec, Mat.getH_mulVec, rot_cross h, mulVec_mulVec, orth_right h,
    one_mulVec]

theorem ownM_blocks (b : Body) (rho_w : ℝ)
    (hO : b.OrMat ∈ Matrix.specialOrthogonalGroup (Fin 3) ℝ) :
    b.ownM rho_w = fromBlocks (b.bodyM • 1 + addedMass b rho_w)
      (b.bodyM • (b.OrMat * getH b.body_rCG * b.OrMatᵀ))
      (-(b.bodyM • (b.OrMat * getH b.body_rCG * b.OrMatᵀ)))
      (-(b.bodyM • (b.OrMat * getH b.body_rCG * b.OrMatᵀ * (b.OrMat * getH b.body_rCG * b.OrMatᵀ)))
        + inertiaCG b + (b.bodyV * rho_w) • (b.OrMat * diagonal b.Car * b.OrMatᵀ)) := by
  have h1 := orth_right hO
  have h2 := orth_left hO
  unfold Body.ownM Body.M0 translateMass6 rotateMass6 rotateMass addedMass inertiaCG
  simp only [toBlocks_fromBlocks₁₁, toBlocks_fromBlocks₁₂, toBlocks_fromBlocks₂₁,
    toBlocks_fromBlocks₂₂, fromBlocks_add, getH_transpose, transpose_zero, zero_mul, mul_zero,
    add_zero, smul_mul_assoc, mul_smul_comm, one_mul, mul_one, transpose_smul, mul_add, add_mul,
    transpose_neg, neg_mul, mul_neg, transpose_mul, transpose_transpose, neg_neg, smul_neg, h1,
    neg_add_rev]
  congr 1
  · simp only [Matrix.mul_assoc]
  · congr 2
    have e : ∀ A : M3 ℝ, b.OrMat * A * b.OrMatᵀ * (b.OrMat * A * b.OrMatᵀ)
        = b.OrMat * (A * A) * b.OrMatᵀ := by
      intro A
      calc b.OrMat * A * b.OrMatᵀ * (b.OrMat * A * b.OrMatᵀ)
          = b.OrMat * A * (b.OrMatᵀ * b.OrMat) * A * b.OrMatᵀ := by noncomm_ring
        _ = _ := by rw [h2]; noncomm_ring
    rw [e]

/-- First row of the own mass matrix -/
theorem ownM_row (b : Body) (rho_w : ℝ)
    (hO : b.OrMat ∈ Matrix.specialOrthogonalGroup (Fin 3) ℝ) (a al : V) :
    (b.ownM rho_w *ᵥ Sum.elim a al) ∘ Sum.inl
      = b.bodyM • (a + al ⨯₃ b.rCG) + addedMass b rho_w *ᵥ a := by
  rw [ownM_blocks b rho_w hO, fromBlocks_mulVec]
  simp only [Sum.elim_comp_inl, Sum.elim_comp_inr, add_mulVec, smul_mulVec, one_mulVec,
    rot_getH hO, smul_add]
  unfold Body.rCG
  abel

theorem sum_row (l : List (V × V × M6 ℝ)) (x : V6 ℝ) :
    ((l.map fun a => a.2.2).sum *ᵥ x) ∘ Sum.inl
      = (l.map fun a => (a.2.2 *ᵥ x) ∘ Sum.inl).sum := by
  induction l with
  | nil => funext k; simp
  | cons a l ih =>
    simp only [List.map_cons, List.sum_cons, add_mulVec]
    rw [← ih]
    rfl

/-- Point: inertia less force, in the first row -/
theorem point_row (p : Point) (rho_w g : ℝ) (o a al w : V) :
    ((p.getNetForceAndMass rho_w g o w).2.2 *ᵥ Sum.elim a al) ∘ Sum.inl
        - (p.getNetForceAndMass rho_w g o w).1
      = (p.doRHS rho_w g).2 *ᵥ rigidAcc a al w o p.r - (p.doRHS rho_w g).1 := by
  unfold Point.getNetForceAndMass translateMass rigidAcc
  simp only [fromBlocks_mulVec, Sum.elim_comp_inl, Sum.elim_comp_inr, ← mulVec_mulVec,
    Mat.getH_mulVec, mulVec_add]
  abel

/-- Rod: inertia less force, in the first row -/
theorem rod_row (R : Rod) (hR : Proper R) (e : Env) (o a al w : V) {x : V × V × M6 ℝ}
    (h : getNetForceAndMass R e o w = some x) :
    (x.2.2 *ᵥ Sum.elim a al) ∘ Sum.inl - x.1
      = ∑ i ∈ range (R.N + 1),
          Rods.M R e ((angles R).getD 0).1 i *ᵥ rigidAcc a al w o (Rods.r R i)
        - ∑ i ∈ range (R.N + 1), Rods.Fnet R e ((angles R).getD 0).1 ((angles R).getD 0).2 i := by
  obtain ⟨ang, hang⟩ := angles_isSome hR
  unfold getNetForceAndMass at h
  rw [hang, Option.bind_some] at h
  simp only [Option.map_eq_some_iff] at h
  obtain ⟨M6, hM6, rfl⟩ := h
  unfold M6net at hM6
  simp only [Option.map_eq_some_iff] at hM6
  obtain ⟨c, -, rfl⟩ := hM6
  rw [hang, Option.getD_some]
  unfold translateMass translateMass6
  rw [sum_fromBlocks, fromBlocks_add]
  simp only [toBlocks_fromBlocks₁₁, toBlocks_fromBlocks₁₂, toBlocks_fromBlocks₂₂,
    fromBlocks_mulVec, Sum.elim_comp_inl, Sum.elim_comp_inr, add_zero]
  unfold F6net centripetal rigidAcc
  rw [if_neg hR.hN]
  simp only [add_mulVec, ← mulVec_mulVec, Mat.getH_mulVec, sum_mulVec, mulVec_add, sum_add_distrib]
  have : ∀ i ∈ range (R.N + 1), Rods.M R e ang.1 i *ᵥ (al ⨯₃ (Rods.r R i - o))
      = Rods.M R e ang.1 i *ᵥ (al ⨯₃ (Rods.r R i - Rods.r R 0))
        + Rods.M R e ang.1 i *ᵥ (al ⨯₃ (Rods.r R 0 - o)) := by
    intro i _
    rw [← mulVec_add, ← map_add, sub_add_sub_cancel]
  rw [sum_congr rfl this, sum_add_distrib]
  abel

/-- What the mass matrix and the force of a body are: inertia less forces -/
theorem body_row (b : Body) (e : Env) (points : List Point) (rods : List Rod)
    (hO : b.OrMat ∈ Matrix.specialOrthogonalGroup (Fin 3) ℝ) (hR : ∀ R ∈ rods, Proper R)
    {F Mo : V} {M : M6 ℝ} (h : b.doRHS e points rods = some (F, Mo, M)) (a al : V) :
    (M *ᵥ Sum.elim a al) ∘ Sum.inl - F
      = b.bodyM • rigidAcc a al b.w b.pos (b.pos + b.rCG)
        + addedMass b e.rho_w *ᵥ (a + b.w ⨯₃ (b.w ⨯₃ b.rCG))
        + attachedInertia e points rods a al b.w b.pos
        - (b.Fgrav e.rho_w e.g + b.drag e.rho_w + attachedForce e points rods) := by
  unfold Body.doRHS at h
  simp only [Option.map_eq_some_iff, addAll_eq, Prod.mk.injEq] at h
  obtain ⟨l, hl, hF, -, hM⟩ := h
  have hr : ∀ (rods : List Rod) (l : List (V × V × M6 ℝ)), (∀ R ∈ rods, Proper R) →
      (rods.mapM fun R => getNetForceAndMass R e b.pos b.w) = some l →
      (l.map fun x => (x.2.2 *ᵥ Sum.elim a al) ∘ Sum.inl).sum - (l.map fun x => x.1).sum
        = (rods.map fun R => ∑ i ∈ range (R.N + 1), Rods.M R e ((angles R).getD 0).1 i *ᵥ
            rigidAcc a al b.w b.pos (Rods.r R i)).sum
          - (rods.map fun R => ∑ i ∈ range (R.N + 1),
              Rods.Fnet R e ((angles R).getD 0).1 ((angles R).getD 0).2 i).sum := by
    intro rods
    induction rods with
    | nil =>
      intro l _ hl
      simp at hl
      subst hl
      rfl
    | cons R rods ih =>
      intro l hP hl
      simp only [List.mapM_cons, Option.pure_def, Option.bind_eq_bind, Option.bind_eq_some_iff,
        Option.some.injEq] at hl
      obtain ⟨x, hx, l', hl', rfl⟩ := hl
      simp only [List.map_cons, List.sum_cons]
      have h1 := ih l' (fun R' h' => hP R' (by simp [h'])) hl'
      have h2 := rod_row R (hP R (by simp)) e b.pos a al b.w hx
      rw [add_sub_add_comm, h1, h2]
      abel
  have hp : ∀ points : List Point,
      (points.map fun p => ((p.getNetForceAndMass e.rho_w e.g b.pos b.w).2.2 *ᵥ Sum.elim a al)
          ∘ Sum.inl).sum
        - (points.map fun p => (p.getNetForceAndMass e.rho_w e.g b.pos b.w).1).sum
      = (points.map fun p => (p.doRHS e.rho_w e.g).2 *ᵥ rigidAcc a al b.w b.pos p.r).sum
        - (points.map fun p => (p.doRHS e.rho_w e.g).1).sum := by
    intro points
    induction points with
    | nil => simp
    | cons p points ih =>
      simp only [List.map_cons, List.sum_cons]
      rw [add_sub_add_comm, ih, point_row]
      abel
  have hown : (b.ownM e.rho_w *ᵥ Sum.elim a al) ∘ Sum.inl - (b.ownF e.rho_w e.g).1
      = b.bodyM • rigidAcc a al b.w b.pos (b.pos + b.rCG)
        + addedMass b e.rho_w *ᵥ (a + b.w ⨯₃ (b.w ⨯₃ b.rCG))
        - (b.Fgrav e.rho_w e.g + b.drag e.rho_w) := by
    rw [ownM_row b _ hO]
    unfold Body.ownF rigidAcc
    rw [ownM_blocks b _ hO, toBlocks_fromBlocks₁₁]
    simp only [add_mulVec, smul_mulVec, one_mulVec, add_sub_cancel_left, mulVec_add, smul_add]
    abel
  rw [← hF, ← hM, add_mulVec, add_mulVec]
  have e1 : ∀ x y z : V6 ℝ, (x + y + z) ∘ Sum.inl = x ∘ Sum.inl + y ∘ Sum.inl + z ∘ Sum.inl :=
    fun _ _ _ => rfl
  rw [e1, sum_row, sum_row]
  have h1 := hr rods l hR hl
  have h2 := hp points
  simp only [List.map_map, Function.comp_def] at h1 h2 ⊢
  simp only [Function.comp_def] at hown
  unfold attachedInertia attachedForce
  rw [sub_eq_iff_eq_add] at h1 h2 hown ⊢
  rw [h1, h2, hown]
  abel

/-! ## C67: Newton's second law -/

/-- C67, free bodies with any points, lines and rods on them: mass times acceleration of the centre
of gravity, plus the inertia of the points and rods, plus that of the added mass, is the sum of
all forces. The acceleration of the added mass is that of the reference point; this holds when
the centre of gravity does not accelerate against it by rotation of the body. -/
theorem C67_body_force_partial (b : Body) (e : Env) (points : List Point) (rods : List Rod)
    (hO : b.OrMat ∈ Matrix.specialOrthogonalGroup (Fin 3) ℝ) (hR : ∀ R ∈ rods, Proper R)
    (hadd : addedMass b e.rho_w *ᵥ (b.w ⨯₃ (b.w ⨯₃ b.rCG)) = 0) {a al : V}
    (h : b.freeAcc e points rods a al) :
    b.bodyM • rigidAcc a al b.w b.pos (b.pos + b.rCG) + addedMass b e.rho_w *ᵥ a
        + attachedInertia e points rods a al b.w b.pos
      = b.Fgrav e.rho_w e.g + b.drag e.rho_w + attachedForce e points rods := by
  obtain ⟨F, Mo, M, h1, h2⟩ := h
  have h3 := body_row b e points rods hO hR h1 a al
  rw [h2, Sum.elim_comp_inl, sub_self, mulVec_add, hadd, add_zero] at h3
  exact (sub_eq_zero.1 h3.symm)

/-- C67 fails with added mass and the centre of gravity off the reference point, for a body
turning: the code gives the added mass, which it places at the reference point, the centripetal
acceleration of the centre of gravity. -/
theorem C67_body_added_mass_false (b : Body) (e : Env) (points : List Point) (rods : List Rod)
    (hO : b.OrMat ∈ Matrix.specialOrthogonalGroup (Fin 3) ℝ) (hR : ∀ R ∈ rods, Proper R)
    (hadd : addedMass b e.rho_w *ᵥ (b.w ⨯₃ (b.w ⨯₃ b.rCG)) ≠ 0) {a al : V}
    (h : b.freeAcc e points rods a al) :
    b.bodyM • rigidAcc a al b.w b.pos (b.pos + b.rCG) + addedMass b e.rho_w *ᵥ a
        + attachedInertia e points rods a al b.w b.pos
      ≠ b.Fgrav e.rho_w e.g + b.drag e.rho_w + attachedForce e points rods := by
  obtain ⟨F, Mo, M, h1, h2⟩ := h
  have h3 := body_row b e points rods hO hR h1 a al
  rw [h2, Sum.elim_comp_inl, sub_self, mulVec_add] at h3
  intro hc
  apply hadd
  rw [← hc] at h3
  rw [h3]
  abel

/-- What the angular acceleration of a bare body in vacuum satisfies -/
theorem body_moment (b : Body) (e : Env)
    (hO : b.OrMat ∈ Matrix.specialOrthogonalGroup (Fin 3) ℝ) (hw : e.rho_w = 0) {a al : V}
    (h : b.freeAcc e [] [] a al) :
    inertiaCG b *ᵥ al = b.bodyM • (b.rCG ⨯₃ (b.w ⨯₃ (b.w ⨯₃ b.rCG))) := by
  have hF := C67_body_force_partial b e [] [] hO (by simp)
    (by unfold addedMass; rw [hw]; simp) h
  obtain ⟨F, Mo, M, h1, h2⟩ := h
  unfold Body.doRHS at h1
  simp only [List.mapM_nil, List.map_nil, Option.map_eq_some_iff, addAll_eq, Prod.mk.injEq,
    List.sum_nil, add_zero] at h1
  obtain ⟨l, hl, -, hM, hM6⟩ := h1
  have hl0 : l = [] := by
    simpa using hl.symm
  subst hl0
  simp only [List.map_nil, List.sum_nil, add_zero] at hM hM6
  rw [← hM6, ownM_blocks b _ hO, fromBlocks_mulVec] at h2
  have h3 := congrArg (fun f => f ∘ Sum.inr) h2
  simp only [Sum.elim_comp_inl, Sum.elim_comp_inr] at h3
  rw [← hM] at h3
  unfold Body.ownF Body.dragMoment at h3
  simp only [hw, mul_zero, zero_mul, zero_smul, add_zero, neg_mulVec, smul_mulVec, add_mulVec,
    ← mulVec_mulVec (M := b.OrMat * getH b.body_rCG * b.OrMatᵀ), rot_getH hO] at h3
  have hd : b.drag 0 = 0 := by unfold Body.drag; simp
  have ha : addedMass b 0 *ᵥ a = 0 := by unfold addedMass; simp
  have hi : attachedInertia e [] [] a al b.w b.pos = 0 := by simp [attachedInertia]
  have hf : attachedForce e [] [] = 0 := by simp [attachedForce]
  rw [hw, hd, ha, hi, hf] at hF
  simp only [add_zero] at hF
  unfold rigidAcc at hF
  rw [add_sub_cancel_left] at hF
  have hrc : b.OrMat *ᵥ b.body_rCG = b.rCG := rfl
  rw [hrc, ← hF] at h3
  generalize b.rCG = c at *
  generalize inertiaCG b *ᵥ al = y at *
  generalize b.bodyM = mm at *
  generalize b.w = w at *
  have : y = mm • c ⨯₃ (a + al ⨯₃ c + w ⨯₃ (w ⨯₃ c)) + mm • (a ⨯₃ c) + mm • (al ⨯₃ c ⨯₃ c) := by
    rw [← map_smul, ← h3]
    abel
  rw [this]
  funext k
  fin_cases k <;> simp [cross_apply, Matrix.vecHead, Matrix.vecTail] <;> ring

/-- Inertia of the body about its reference point, applied to `x` -/
noncomputable def inertiaRef (b : Body) (x : V) : V :=
  inertiaCG b *ᵥ x + b.bodyM • (b.rCG ⨯₃ (x ⨯₃ b.rCG))

/-- C67, moments: for a body in vacuum, on which only its weight acts (at the centre of gravity, so
without moment about it), the rate of the angular momentum `I α + ω × I ω` is zero if and only if
the angular velocity is along a principal axis for the reference point. -/
theorem C67_body_moment_iff (b : Body) (e : Env)
    (hO : b.OrMat ∈ Matrix.specialOrthogonalGroup (Fin 3) ℝ) (hw : e.rho_w = 0) {a al : V}
    (h : b.freeAcc e [] [] a al) :
    inertiaCG b *ᵥ al + b.w ⨯₃ (inertiaCG b *ᵥ b.w) = 0 ↔ b.w ⨯₃ inertiaRef b b.w = 0 := by
  rw [body_moment b e hO hw h]
  unfold inertiaRef
  have : b.bodyM • (b.rCG ⨯₃ (b.w ⨯₃ (b.w ⨯₃ b.rCG)))
      = b.w ⨯₃ (b.bodyM • (b.rCG ⨯₃ (b.w ⨯₃ b.rCG))) := by
    rw [map_smul]
    congr 1
    generalize b.rCG = c
    generalize b.w = w
    funext k
    fin_cases k <;> simp [cross_apply] <;> ring
  rw [this, add_comm, ← map_add]

/-- C67, moments: in particular for a body which does not rotate. -/
theorem C67_body_moment_partial (b : Body) (e : Env)
    (hO : b.OrMat ∈ Matrix.specialOrthogonalGroup (Fin 3) ℝ) (hw : e.rho_w = 0) {a al : V}
    (h : b.freeAcc e [] [] a al) (h0 : b.w = 0) :
    inertiaCG b *ᵥ al + b.w ⨯₃ (inertiaCG b *ᵥ b.w) = 0 := by
  rw [C67_body_moment_iff b e hO hw h, h0]
  simp

/-- C67: nevertheless the kinetic energy of the body changes by the work of its weight only. -/
theorem C67_body_energy (b : Body) (e : Env)
    (hO : b.OrMat ∈ Matrix.specialOrthogonalGroup (Fin 3) ℝ) (hw : e.rho_w = 0) {a al : V}
    (h : b.freeAcc e [] [] a al) :
    b.bodyM * (rigidVel b.v b.w b.pos (b.pos + b.rCG)
        ⬝ᵥ rigidAcc a al b.w b.pos (b.pos + b.rCG)) + b.w ⬝ᵥ (inertiaCG b *ᵥ al)
      = b.Fgrav 0 e.g ⬝ᵥ rigidVel b.v b.w b.pos (b.pos + b.rCG) := by
  have hF := C67_body_force_partial b e [] [] hO (by simp)
    (by unfold addedMass; rw [hw]; simp) h
  have hd : b.drag 0 = 0 := by unfold Body.drag; simp
  have ha : addedMass b 0 *ᵥ a = 0 := by unfold addedMass; simp
  have hi : attachedInertia e [] [] a al b.w b.pos = 0 := by simp [attachedInertia]
  have hf : attachedForce e [] [] = 0 := by simp [attachedForce]
  rw [hw, hd, ha, hi, hf] at hF
  simp only [add_zero] at hF
  rw [body_moment b e hO hw h, ← hF, smul_dotProduct, smul_eq_mul, dotProduct_comm]
  have : b.w ⬝ᵥ (b.bodyM • (b.rCG ⨯₃ (b.w ⨯₃ (b.w ⨯₃ b.rCG)))) = 0 := by
    generalize b.rCG = c
    generalize b.w = w
    simp [dotProduct, Fin.sum_univ_three, cross_apply]
    ring
  rw [this, add_zero]

/-! ## C69: reaction of coupled bodies -/

/-- C69: the force returned to the caller for a coupled body (which has no mass of its own) is the
sum of the forces on its points and rods less mass times acceleration of each of them, for the
accelerations given. -/
theorem C69_coupled_force (b : Body) (e : Env) (points : List Point) (rods : List Rod)
    (hO : b.OrMat ∈ Matrix.specialOrthogonalGroup (Fin 3) ℝ) (hR : ∀ R ∈ rods, Proper R)
    (hm : b.bodyM = 0) (hv : b.bodyV = 0) (hc : b.CdA = 0)
    {F Mo : V} {M : M6 ℝ} (h : b.doRHS e points rods = some (F, Mo, M)) (a al : V) :
    (coupledFnet (F, Mo, M) a al).1
      = attachedForce e points rods - attachedInertia e points rods a al b.w b.pos := by
  have h1 := body_row b e points rods hO hR h a al
  have h2 : addedMass b e.rho_w = 0 := by unfold addedMass; rw [hv]; simp
  have h3 : b.Fgrav e.rho_w e.g = 0 := by
    unfold Body.Fgrav; rw [hv, hm]; funext k; fin_cases k <;> simp
  have h4 : b.drag e.rho_w = 0 := by unfold Body.drag; rw [hc]; simp
  rw [h2, h3, h4, hm] at h1
  simp only [zero_smul, zero_mulVec, zero_add] at h1
  have h5 : (M *ᵥ Sum.elim a al) ∘ Sum.inl = M.toBlocks₁₁ *ᵥ a + M.toBlocks₁₂ *ᵥ al := by
    conv_lhs => rw [← fromBlocks_toBlocks M]
    rw [fromBlocks_mulVec]
    simp
  unfold coupledFnet
  simp only
  rw [← h5, ← neg_sub, h1, neg_sub]

/-- C69: the force returned for a coupled pinned body: all forces less all inertia, provided the
added mass does not see the centripetal acceleration of the centre of gravity (C67). -/
theorem C69_pinned_force_partial (b : Body) (e : Env) (points : List Point) (rods : List Rod)
    (hO : b.OrMat ∈ Matrix.specialOrthogonalGroup (Fin 3) ℝ) (hR : ∀ R ∈ rods, Proper R)
    (hadd : addedMass b e.rho_w *ᵥ (b.w ⨯₃ (b.w ⨯₃ b.rCG)) = 0)
    {F Mo : V} {M : M6 ℝ} (h : b.doRHS e points rods = some (F, Mo, M)) (a al : V) :
    (pinnedFnet (F, Mo, M) a al).1
      = b.Fgrav e.rho_w e.g + b.drag e.rho_w + attachedForce e points rods
        - (b.bodyM • rigidAcc a al b.w b.pos (b.pos + b.rCG) + addedMass b e.rho_w *ᵥ a
          + attachedInertia e points rods a al b.w b.pos) := by
  have h1 := body_row b e points rods hO hR h a al
  rw [mulVec_add, hadd, add_zero] at h1
  have h5 : (M *ᵥ Sum.elim a al) ∘ Sum.inl = M.toBlocks₁₁ *ᵥ a + M.toBlocks₁₂ *ᵥ al := by
    conv_lhs => rw [← fromBlocks_toBlocks M]
    rw [fromBlocks_mulVec]
    simp
  unfold pinnedFnet
  simp only
  rw [← neg_sub _ (b.Fgrav e.rho_w e.g + b.drag e.rho_w + attachedForce e points rods), ← h1, h5]
  abel

/-! ## C68: pinned rods -/

/-- Force and moment handed to the body by a rod pinned to it at the reference point, as seen in the
resultant on the body -/
theorem pinned_moment (b : Body) (e : Env) (R : Rod) (hR : Proper R) (hpin : Rods.r R 0 = b.pos)
    {ang : ℝ × ℝ} (hang : angles R = some ang) {F Mo F0 Mo0 : V} {M M' : M6 ℝ}
    (h : b.doRHS e [] [R] = some (F, Mo, M)) (h0 : b.doRHS e [] [] = some (F0, Mo0, M')) :
    Mo - Mo0 = (F6net R e ang.1 ang.2).2 := by
  unfold Body.doRHS at h h0
  simp only [List.mapM_cons, List.mapM_nil, Option.pure_def, Option.bind_eq_bind,
    Option.map_eq_some_iff, Option.bind_eq_some_iff, addAll_eq, Prod.mk.injEq,
    List.map_nil, List.sum_nil, add_zero, Option.some.injEq] at h h0
  obtain ⟨l, ⟨x, hx, l', rfl, rfl⟩, -, h2, -⟩ := h
  obtain ⟨l0, rfl, -, h3, -⟩ := h0
  simp only [List.map_cons, List.map_nil, List.sum_cons, List.sum_nil, add_zero] at h2 h3
  unfold getNetForceAndMass at hx
  rw [hang, Option.bind_some] at hx
  simp only [Option.map_eq_some_iff] at hx
  obtain ⟨M6, -, rfl⟩ := hx
  rw [hpin] at h2
  simp only [sub_self, map_zero, LinearMap.zero_apply, add_zero] at h2
  rw [← h2, ← h3, add_sub_cancel_left]

/-- Vacuum on earth -/
noncomputable def air : Env := { still with rho_w := 0 }

/-- In air the nodes of the inclined rod carry their weight only. -/
theorem spar_air (phi beta : ℝ) (i : ℕ) :
    Rods.Fnet (spar 0) air phi beta i = ![0, 0, -(m (spar 0) i * 10)] := by
  have hz : ∀ i, Rods.r (spar 0) i 2 ≥ 0 := by
    intro i
    rw [r_eq (spar_proper 0).hN]
    have : (0 : ℝ) ≤ i / 2 * 10 * (4 / 5) := by positivity
    simpa [spar] using this
  have h1 : Rods.W (spar 0) air i = ![0, 0, -(m (spar 0) i * 10)] := by
    unfold Rods.W
    rw [if_neg (spar_proper 0).hN]
    funext k; fin_cases k <;> simp [air, still]
  have hr : air.rho_w = 0 := rfl
  have hp : ∀ j, air.pdyn j = 0 := fun _ => rfl
  have ha : ∀ F : ℝ, F = 0 → Rods.axial F phi beta = 0 := by
    rintro _ rfl
    unfold Rods.axial; funext k; fin_cases k <;> simp
  have h2 : Bo (spar 0) air phi beta i = 0 := by
    unfold Bo BoSide BoA BoB
    rw [hr, ha _ (by ring), ha _ (by ring)]
    split_ifs <;> funext k <;> fin_cases k <;> simp
  have h3 : Rods.Dp (spar 0) air phi i = 0 := by unfold Rods.Dp; rw [hr]; split_ifs <;> simp
  have h4 : Rods.Dq (spar 0) air phi i = 0 := by unfold Rods.Dq; rw [hr]; split_ifs <;> simp
  have h5 : Rods.Ap (spar 0) air phi i = 0 := by unfold Rods.Ap; rw [hr]; split_ifs <;> simp
  have h6 : Rods.Aq (spar 0) air phi i = 0 := by unfold Rods.Aq; rw [hr]; split_ifs <;> simp
  have h7 : Rods.Pd (spar 0) air phi i = 0 := by unfold Rods.Pd; rw [hp]; split_ifs <;> simp
  have h8 : Rods.B (spar 0) air i = 0 := by
    unfold Rods.B
    have h9 : ¬ Rods.r (spar 0) i 2 < -200 := by have := hz i; linarith
    simp [air, still, h9]
  have h9 : lineF (spar 0) i = 0 := by unfold lineF; simp [spar]
  unfold Rods.Fnet
  rw [h1, h2, h3, h4, h5, h6, h7, h8, h9]
  simp

/-- A body of 1 t without rotation -/
noncomputable def hub : Body where
  bodyM := 1000
  bodyV := 0
  body_rCG := 0
  bodyI := ![100, 200, 300]
  CdA := 0
  CdAr := 0
  Ca := 0
  Car := 0
  pos := Rods.r (spar 0) 0
  OrMat := 1
  v := 0
  w := 0
  U := 0

/-- C68 fails: a rod pinned to a body at its reference point, inclined under its own weight, gives
the body a moment, as if it were clamped. -/
theorem C68_pin_moment_false : ∃ (b : Body) (e : Env) (R : Rod) (F Mo F0 Mo0 : V) (M M0 : M6 ℝ),
    Rods.r R 0 = b.pos ∧ b.setPinnedRod 0 R = R ∧
    b.doRHS e [] [R] = some (F, Mo, M) ∧ b.doRHS e [] [] = some (F0, Mo0, M0) ∧ Mo ≠ Mo0 := by
  have hP := spar_proper 0
  obtain ⟨ang, hang⟩ := angles_isSome hP
  have hd : ∃ x, hub.doRHS air [] [spar 0] = some x := by
    unfold Body.doRHS getNetForceAndMass M6net inertiaCorrection
    have h6 : sixNN (spar 0).N ≠ 0 := by simp [spar, sixNN]
    simp [hang, hP.hN, h6]
  have hd0 : ∃ x, hub.doRHS air [] [] = some x := by
    unfold Body.doRHS
    simp
  obtain ⟨⟨F, Mo, M⟩, h1⟩ := hd
  obtain ⟨⟨F0, Mo0, M0⟩, h2⟩ := hd0
  refine ⟨hub, air, spar 0, F, Mo, F0, Mo0, M, M0, rfl, ?_, h1, h2, ?_⟩
  · unfold Body.setPinnedRod transformKinematics
    simp [hub, r_zero, spar]
  intro hc
  have h3 := pinned_moment hub air (spar 0) hP rfl hang h1 h2
  rw [hc, sub_self] at h3
  have h4 := congrFun h3 1
  unfold F6net at h4
  have h5 : Mext (spar 0) air ang.1 ang.2 = 0 := by
    unfold Mext MextCap MextWater MextLine
    have hr : air.rho_w = 0 := rfl
    have hA : (spar 0).attachedA = [] := rfl
    have hB : (spar 0).attachedB = [] := rfl
    rw [hr, hA, hB]
    split_ifs <;> funext k <;> fin_cases k <;> simp
  simp only [h5, add_zero, spar_air] at h4
  have h6 : ∀ i ∈ range ((spar 0).N + 1),
      ((Rods.r (spar 0) i - Rods.r (spar 0) 0) ⨯₃ ![0, 0, -(m (spar 0) i * 10)]) 1
        = 6 * (m (spar 0) i * ((i : ℝ) / (spar 0).N * (spar 0).UnstrLen)) := by
    intro i _
    rw [r_rel hP.hN]
    simp [cross_apply, spar]
    ring
  rw [Finset.sum_apply, sum_congr rfl h6, ← mul_sum, sum_mx hP.hN] at h4
  have hm : 0 < mass (spar 0) := by
    unfold mass
    have := Real.pi_pos
    simp [spar]
    positivity
  have hL : (0 : ℝ) < (spar 0).UnstrLen / 2 := by have := hP.hL; positivity
  have : 0 < 6 * (mass (spar 0) * ((spar 0).UnstrLen / 2)) := by positivity
  simp only [Pi.zero_apply] at h4
  linarith

/-- C68, what holds: the moment of a rod pinned at the reference point is that of its own loads
about the pin, so a rod without such a moment gives none. -/
theorem C68_pin_moment_partial (b : Body) (e : Env) (R : Rod) (hR : Proper R)
    (hpin : Rods.r R 0 = b.pos) {ang : ℝ × ℝ} (hang : angles R = some ang)
    (hbal : ∑ i ∈ range (R.N + 1), (Rods.r R i - Rods.r R 0) ⨯₃ Rods.Fnet R e ang.1 ang.2 i
      + Mext R e ang.1 ang.2 = 0) {F Mo F0 Mo0 : V} {M M' : M6 ℝ}
    (h : b.doRHS e [] [R] = some (F, Mo, M)) (h0 : b.doRHS e [] [] = some (F0, Mo0, M')) :
    Mo = Mo0 := by
  have := pinned_moment b e R hR hpin hang h h0
  unfold F6net at this
  rw [hbal] at this
  exact sub_eq_zero.1 this

/-! ## Examples -/

/-- A body of 1 kg in deep space with principal moments 1, 2, 3, turning about an axis between the
first two -/
noncomputable def top : Body := { hub with bodyM := 1, bodyI := ![1, 2, 3], w := ![1, 1, 0] }

theorem top_free : top.freeAcc space [] [] 0 0 := by
  have h : top.doRHS space [] [] = some (0, 0, top.ownM 0) := by
    unfold Body.doRHS
    simp only [List.mapM_nil, List.map_nil, Option.pure_def, Option.map_some, addAll,
      Option.some.injEq, Prod.mk.injEq]
    have hg : top.Fgrav 0 0 = 0 := by
      unfold Body.Fgrav; funext k; fin_cases k <;> simp
    have hc : top.rCG = 0 := by simp [Body.rCG, top, hub]
    have hd : top.drag 0 = 0 := by unfold Body.drag; simp
    have hm : top.dragMoment 0 = 0 := by unfold Body.dragMoment; simp
    refine ⟨?_, ?_, rfl⟩
    · change top.Fgrav 0 0 - _ *ᵥ (_ ⨯₃ (_ ⨯₃ top.rCG)) + top.drag 0 = 0
      rw [hg, hc, hd]; simp
    · change top.rCG ⨯₃ top.Fgrav 0 0 + top.dragMoment 0 = 0
      rw [hg, hm]; simp
  exact ⟨_, _, _, h, by simp⟩

theorem top_orth : top.OrMat ∈ Matrix.specialOrthogonalGroup (Fin 3) ℝ := one_mem _

/-- C67, moments, fails: the body without any force on it keeps its angular velocity although its
angular momentum then turns with the body. -/
theorem C67_body_moment_false : ∃ (b : Body) (e : Env) (a al : V),
    b.OrMat ∈ Matrix.specialOrthogonalGroup (Fin 3) ℝ ∧ e.rho_w = 0 ∧ e.g = 0 ∧
    b.freeAcc e [] [] a al ∧ inertiaCG b *ᵥ al + b.w ⨯₃ (inertiaCG b *ᵥ b.w) ≠ 0 := by
  refine ⟨top, space, 0, 0, top_orth, rfl, rfl, top_free, ?_⟩
  intro h
  rw [C67_body_moment_iff top space top_orth rfl top_free] at h
  have hI : inertiaCG top *ᵥ top.w = ![1, 2, 0] := by
    have h1 : inertiaCG top = diagonal ![1, 2, 3] := by simp [inertiaCG, top, hub]
    rw [h1]
    funext k
    rw [mulVec_diagonal]
    fin_cases k <;> simp [top]
  have hc : top.rCG = 0 := by simp [Body.rCG, top, hub]
  unfold inertiaRef at h
  rw [hI, hc] at h
  have := congrFun h 2
  simp [top, cross_apply] at this
  norm_num at this

/-- A float of 1 m³ without mass turning about an axis beside its centre of gravity -/
noncomputable def float : Body :=
  { hub with bodyM := 0, bodyV := 1, body_rCG := ![1, 0, 0], bodyI := 0, w := ![0, 0, 1],
             Ca := ![1, 1, 1], Car := ![1, 1, 1] }

/-- It meets the hypotheses of `C67_body_added_mass_false`. -/
example : float.OrMat ∈ Matrix.specialOrthogonalGroup (Fin 3) ℝ ∧
    addedMass float still.rho_w *ᵥ (float.w ⨯₃ (float.w ⨯₃ float.rCG)) ≠ 0 ∧
    float.freeAcc still [] [] ![1, 0, 10] ![0, -10, 0] := by
  have hO : float.OrMat ∈ Matrix.specialOrthogonalGroup (Fin 3) ℝ := one_mem _
  have hc : float.rCG = ![1, 0, 0] := by simp [Body.rCG, float, hub]
  have hwc : float.w ⨯₃ (float.w ⨯₃ float.rCG) = ![-1, 0, 0] := by
    rw [hc]
    simp [float, hub, cross_apply]
  have hd1 : (diagonal ![1, 1, 1] : M3 ℝ) = 1 := by
    ext i j; fin_cases i <;> fin_cases j <;> simp
  have hA : addedMass float 1000 = (1000 : ℝ) • (1 : M3 ℝ) := by
    unfold addedMass
    simp [float, hub, hd1]
  have hI : inertiaCG float = 0 := by unfold inertiaCG; simp [float, hub]
  have hM : float.ownM 1000 = fromBlocks ((1000 : ℝ) • (1 : M3 ℝ)) 0 0 ((1000 : ℝ) • (1 : M3 ℝ)) := by
    rw [ownM_blocks _ _ hO, hA, hI]
    simp [float, hub, hd1]
  have hg : float.Fgrav 1000 10 = ![0, 0, 10000] := by
    unfold Body.Fgrav
    funext k; fin_cases k <;> simp [float, hub]; norm_num
  have hd : float.drag 1000 = 0 := by unfold Body.drag; simp [float, hub]
  have hm : float.dragMoment 1000 = 0 := by unfold Body.dragMoment; simp [float, hub]
  refine ⟨hO, ?_, ?_⟩
  · change addedMass float 1000 *ᵥ _ ≠ 0
    rw [hwc, hA, smul_mulVec, one_mulVec]
    intro h
    have := congrFun h 0
    simp at this
  · have h : float.doRHS still [] [] = some (![1000, 0, 10000], ![0, -10000, 0], float.ownM 1000) := by
      unfold Body.doRHS
      simp only [List.mapM_nil, List.map_nil, Option.pure_def, Option.map_some, addAll,
        Option.some.injEq, Prod.mk.injEq]
      refine ⟨?_, ?_, rfl⟩
      · change float.Fgrav 1000 10 - (float.ownM 1000).toBlocks₁₁ *ᵥ _ + float.drag 1000 = _
        rw [hg, hd, hwc, hM, toBlocks_fromBlocks₁₁, smul_mulVec, one_mulVec]
        funext k; fin_cases k <;> simp
      · change float.rCG ⨯₃ float.Fgrav 1000 10 + float.dragMoment 1000 = _
        rw [hg, hm, hc]
        simp [cross_apply]
    refine ⟨_, _, _, h, ?_⟩
    rw [hM, fromBlocks_mulVec]
    simp only [Sum.elim_comp_inl, Sum.elim_comp_inr, smul_mulVec, one_mulVec, zero_mulVec, add_zero,
      zero_add]
    congr 1
    · funext k; fin_cases k <;> simp; norm_num
    · funext k; fin_cases k <;> simp; norm_num

/-- A body with two points and a rod fixed to it at an angle, for C41, C67 and C69 -/
example : ∃ R', hub.setRod 0 ![0, 0, 1] ![3 / 5, 0, 4 / 5] (spar 0) = some R' ∧ Proper R' := by
  have hq : (![3 / 5, 0, 4 / 5] : V) ⬝ᵥ ![3 / 5, 0, 4 / 5] = 1 := by
    simp [dotProduct, Fin.sum_univ_three]; norm_num
  have hz : (![0, 0, 1] : V) ⬝ᵥ ![0, 0, 1] = 1 := by
    simp [dotProduct, Fin.sum_univ_three]
  have h1 : ∃ quat, fromTwoVectors ![3 / 5, 0, 4 / 5] (![0, 0, 1] : V) = some quat := by
    unfold fromTwoVectors
    rw [normalized_unit hq, normalized_unit hz]
    simp only
    rw [if_neg]
    · exact ⟨_, rfl⟩
    · simp [dotProduct, Fin.sum_univ_three]; norm_num
  obtain ⟨quat, h1⟩ := h1
  unfold Body.setRod
  have h2 : hub.OrMat *ᵥ ![0, 0, 1] = (![0, 0, 1] : V) := by simp [hub]
  rw [h2, h1]
  refine ⟨_, rfl, (spar_proper 0).hN, (spar_proper 0).hd, (spar_proper 0).hL, ?_⟩
  simp only
  rw [rotates hq hz h1, hz]

end MD.Bodies
