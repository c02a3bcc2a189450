import Verif.Props.Point
import Verif.Props.RodMass
import Verif.Props.RodStart
import Verif.Props.Rotation

/-!
# Bodies: rigid motion and resultant (C41), Newton's second law (C67), drag (C32), pinned rods (C68)
-/

set_option linter.unusedSimpArgs false
set_option linter.unusedVariables false

namespace MD.Bodies

open Matrix MD.Mat MD.Rot MD.Mooring MD.Rods Finset

/-! ## Specification -/

/-- Velocity of the point at `x` of a rigid body moving with `v` at `o` and turning with `w` -/
def rigidVel (v w o x : V) : V := v + w ⨯₃ (x - o)

/-- Acceleration of the point at `x` of a rigid body: `a` and `al` are the accelerations at `o` -/
def rigidAcc (a al w o x : V) : V := a + al ⨯₃ (x - o) + w ⨯₃ (w ⨯₃ (x - o))

/-! ## C41: kinematics -/

/-- C41: points attached to a body have the velocity of the rigid motion. -/
theorem C41_point_velocity (b : Body) (rel : V) (p : Point) :
    (b.setPoint rel p).rd = rigidVel b.v b.w b.pos (b.setPoint rel p).r := by
  unfold Body.setPoint transformKinematics rigidVel
  simp

theorem orth_dot {R : M3 ℝ} (h : R ∈ Matrix.specialOrthogonalGroup (Fin 3) ℝ) (u v : V) :
    (R *ᵥ u) ⬝ᵥ (R *ᵥ v) = u ⬝ᵥ v := by
  rw [dotProduct_mulVec, ← mulVec_transpose, mulVec_mulVec, orth_left h, one_mulVec]

/-- C41: the distances between attached points are those of the input file, whatever the position
and orientation of the body. -/
theorem C41_distance (b : Body) (hO : b.OrMat ∈ Matrix.specialOrthogonalGroup (Fin 3) ℝ)
    (rel1 rel2 : V) (p1 p2 : Point) :
    ((b.setPoint rel1 p1).r - (b.setPoint rel2 p2).r)
        ⬝ᵥ ((b.setPoint rel1 p1).r - (b.setPoint rel2 p2).r)
      = (rel1 - rel2) ⬝ᵥ (rel1 - rel2) := by
  have : (b.setPoint rel1 p1).r - (b.setPoint rel2 p2).r = b.OrMat *ᵥ (rel1 - rel2) := by
    unfold Body.setPoint transformKinematics
    simp [Matrix.mulVec_sub]
  rw [this, orth_dot hO]

/-- C41: nor do the imposed velocities change the distance. -/
theorem C41_distance_rate (b : Body) (rel1 rel2 : V) (p1 p2 : Point) :
    ((b.setPoint rel1 p1).rd - (b.setPoint rel2 p2).rd)
      ⬝ᵥ ((b.setPoint rel1 p1).r - (b.setPoint rel2 p2).r) = 0 := by
  rw [C41_point_velocity, C41_point_velocity]
  unfold rigidVel
  generalize (b.setPoint rel1 p1).r = x
  generalize (b.setPoint rel2 p2).r = y
  simp [dotProduct, Fin.sum_univ_three, cross_apply]
  ring

/-- C41: the velocity given to an attached point is the rate of the position given to it, for a
free body which moves with its velocity and whose orientation evolves with the rates of the
code. -/
theorem C41_velocity_is_rate (b : ℝ → Body) (q : ℝ → Quat ℝ) (hq : Evolves (fun t => (b t).w) q)
    (h0 : 0 < (q 0).normSq) (hO : ∀ t, (b t).OrMat = orMat (q t))
    (hpos : ∀ t, HasDerivAt (fun s => (b s).pos) (b t).v t) (rel : V) (p : Point) (t : ℝ) :
    HasDerivAt (fun s => ((b s).setPoint rel p).r) (((b t).setPoint rel p).rd) t := by
  have h1 := C42_angular_velocity _ q hq h0 rel t
  unfold Body.setPoint transformKinematics
  simp only [hO]
  rw [add_comm]
  exact h1.add (hpos t)

/-- C41: a rod fixed to a body lies where the input file puts it relative to the body: node `i` is
at the fraction `i / N` of the way along the relative axis. -/
theorem C41_rod_position (b : Body) (hO : b.OrMat ∈ Matrix.specialOrthogonalGroup (Fin 3) ℝ)
    (rel dir q0 : V) (hdir : dir ⬝ᵥ dir = 1) (hq0 : q0 ⬝ᵥ q0 = 1) (R R' : Rod)
    (hN : R.N ≠ 0) (h : b.setRod rel dir q0 R = some R') (i : ℕ) :
    Rods.r R' i = b.pos + b.OrMat *ᵥ (rel + ((i : ℝ) / R.N * R.UnstrLen) • dir) := by
  unfold Body.setRod at h
  simp only [Option.map_eq_some_iff] at h
  obtain ⟨quat, h1, rfl⟩ := h
  have hd : (b.OrMat *ᵥ dir) ⬝ᵥ (b.OrMat *ᵥ dir) = 1 := by rw [orth_dot hO, hdir]
  have hr := rotates hq0 hd h1
  rw [r_eq (by exact hN)]
  simp only [hr]
  unfold transformKinematics
  simp only [Matrix.mulVec_add, Matrix.mulVec_smul]
  abel

/-- C41: every node of a rod fixed to a body has the velocity of the rigid motion. -/
theorem C41_rod_velocity (b : Body) (rel dir q0 : V) (R R' : Rod) (hN : R.N ≠ 0)
    (h : b.setRod rel dir q0 R = some R') (i : ℕ) :
    Rods.rd R' i = rigidVel b.v b.w b.pos (Rods.r R' i) := by
  unfold Body.setRod at h
  simp only [Option.map_eq_some_iff] at h
  obtain ⟨quat, h1, rfl⟩ := h
  rw [rd_eq (by exact hN)]
  rw [r_zero]
  unfold rigidVel transformKinematics
  simp only
  generalize Rods.r _ i = x
  rw [map_sub, map_sub, map_add]
  abel

/-! ## C41: resultant -/

theorem addAll_eq (l : List (V × V × M6 ℝ)) (acc : V × V × M6 ℝ) :
    addAll l acc = (acc.1 + (l.map fun a => a.1).sum, acc.2.1 + (l.map fun a => a.2.1).sum,
      acc.2.2 + (l.map fun a => a.2.2).sum) := by
  induction l generalizing acc with
  | nil => simp [addAll]
  | cons a l ih =>
    rw [addAll, ih]
    simp only [List.map_cons, List.sum_cons, add_assoc]

theorem triple (a b c : V) : (a ⨯₃ b) ⬝ᵥ c = b ⬝ᵥ (c ⨯₃ a) := by
  simp [dotProduct, Fin.sum_univ_three, cross_apply]; ring

/-- C41: force and moment which a point hands to its body have, in every rigid motion of the body,
the power of the force at the point (without the centripetal term, which is not a force on the
point but part of its inertia). -/
theorem C41_point_power (p : Point) (rho_w g : ℝ) (o v w v' w' : V) :
    (p.getNetForceAndMass rho_w g o 0).1 ⬝ᵥ v' + (p.getNetForceAndMass rho_w g o w).2.1 ⬝ᵥ w'
      = (p.doRHS rho_w g).1 ⬝ᵥ rigidVel v' w' o p.r := by
  unfold Point.getNetForceAndMass rigidVel
  simp only [LinearMap.zero_apply, map_zero, Matrix.mulVec_zero, neg_zero, add_zero,
    dotProduct_add, triple]

/-- C41: the same for the forces on the nodes of a rod and the external moments. -/
theorem C41_rod_power (R : Rod) (e : Env) (hN : R.N ≠ 0) (o v' w' : V) {ang : ℝ × ℝ}
    (hang : angles R = some ang) {F Mo : V} {M6 : M6 ℝ}
    (h : getNetForceAndMass R e o 0 = some (F, Mo, M6)) :
    F ⬝ᵥ v' + Mo ⬝ᵥ w'
      = ∑ i ∈ range (R.N + 1), Rods.Fnet R e ang.1 ang.2 i ⬝ᵥ rigidVel v' w' o (Rods.r R i)
        + Mext R e ang.1 ang.2 ⬝ᵥ w' := by
  unfold getNetForceAndMass at h
  rw [hang, Option.bind_some] at h
  simp only [Option.map_eq_some_iff, Prod.mk.injEq] at h
  obtain ⟨M, -, hF, hM, -⟩ := h
  have hc : centripetal R e ang.1 o 0 = 0 := by unfold centripetal; simp
  rw [hc, add_zero] at hF
  rw [← hF, ← hM]
  unfold F6net rigidVel
  simp only [dotProduct_add, add_dotProduct, sum_add_distrib, triple, sum_dotProduct]
  have : ∀ i ∈ range (R.N + 1), Rods.Fnet R e ang.1 ang.2 i ⬝ᵥ (w' ⨯₃ (Rods.r R i - o))
      = Rods.Fnet R e ang.1 ang.2 i ⬝ᵥ (w' ⨯₃ (Rods.r R i - Rods.r R 0))
        + Rods.Fnet R e ang.1 ang.2 i ⬝ᵥ (w' ⨯₃ (Rods.r R 0 - o)) := by
    intro i _
    rw [← dotProduct_add, ← map_add, sub_add_sub_cancel]
  rw [sum_congr rfl this, sum_add_distrib]
  ring

/-- C41: kinetic energy. The mass matrix which a point hands to its body gives the energy of the
point moving with the body. -/
theorem C41_point_energy (p : Point) (rho_w g : ℝ) (o v' w' w : V)
    (hs : (p.doRHS rho_w g).2.IsSymm) :
    energy2 (p.getNetForceAndMass rho_w g o w).2.2 v' w'
      = rigidVel v' w' o p.r ⬝ᵥ ((p.doRHS rho_w g).2 *ᵥ rigidVel v' w' o p.r) := by
  unfold Point.getNetForceAndMass
  exact C27_energy_point _ _ hs v' w'

/-- C41: the resultant on a body which does not rotate is work-equivalent: in every rigid motion
its power is that of the forces on all attached points and nodes of rods, plus weight and
buoyancy at the centre of gravity and the drag of the body. -/
theorem C41_power (b : Body) (e : Env) (points : List Point) (rods : List Rod) (hw : b.w = 0)
    (hR : ∀ R ∈ rods, Proper R)
    {F Mo : V} {M : M6 ℝ} (h : b.doRHS e points rods = some (F, Mo, M)) (v' w' : V) :
    F ⬝ᵥ v' + Mo ⬝ᵥ w'
      = b.Fgrav e.rho_w e.g ⬝ᵥ rigidVel v' w' b.pos (b.pos + b.rCG)
        + b.drag e.rho_w ⬝ᵥ v'
        + (points.map fun p => (p.doRHS e.rho_w e.g).1 ⬝ᵥ rigidVel v' w' b.pos p.r).sum
        + (rods.map fun R => ∑ i ∈ range (R.N + 1),
            Rods.Fnet R e ((angles R).getD 0).1 ((angles R).getD 0).2 i
              ⬝ᵥ rigidVel v' w' b.pos (Rods.r R i)
            + Mext R e ((angles R).getD 0).1 ((angles R).getD 0).2 ⬝ᵥ w').sum := by
  unfold Body.doRHS at h
  simp only [Option.map_eq_some_iff, addAll_eq, Prod.mk.injEq] at h
  obtain ⟨l, hl, hF, hM, -⟩ := h
  have hown : (b.ownF e.rho_w e.g).1 ⬝ᵥ v' + (b.ownF e.rho_w e.g).2 ⬝ᵥ w'
      = b.Fgrav e.rho_w e.g ⬝ᵥ rigidVel v' w' b.pos (b.pos + b.rCG) + b.drag e.rho_w ⬝ᵥ v' := by
    unfold Body.ownF Body.dragMoment rigidVel
    rw [hw]
    simp [triple, dotProduct_add, add_dotProduct]
    ring
  have hsum : ∀ (l : List (V × V × M6 ℝ)),
      (l.map fun a => a.1).sum ⬝ᵥ v' + (l.map fun a => a.2.1).sum ⬝ᵥ w'
        = (l.map fun a => a.1 ⬝ᵥ v' + a.2.1 ⬝ᵥ w').sum := by
    intro l
    induction l with
    | nil => simp
    | cons a l ih =>
      simp only [List.map_cons, List.sum_cons, add_dotProduct, ← ih]
      ring
  have hp : (points.map fun p => (p.getNetForceAndMass e.rho_w e.g b.pos b.w).1 ⬝ᵥ v'
        + (p.getNetForceAndMass e.rho_w e.g b.pos b.w).2.1 ⬝ᵥ w')
      = points.map fun p => (p.doRHS e.rho_w e.g).1 ⬝ᵥ rigidVel v' w' b.pos p.r := by
    apply List.map_congr_left
    intro p _
    rw [hw]
    exact C41_point_power p _ _ _ 0 0 v' w'
  have hr : ∀ (rods : List Rod) (l : List (V × V × M6 ℝ)), (∀ R ∈ rods, Proper R) →
      (rods.mapM fun R => getNetForceAndMass R e b.pos b.w) = some l →
      (l.map fun a => a.1 ⬝ᵥ v' + a.2.1 ⬝ᵥ w')
        = rods.map fun R => ∑ i ∈ range (R.N + 1),
            Rods.Fnet R e ((angles R).getD 0).1 ((angles R).getD 0).2 i
              ⬝ᵥ rigidVel v' w' b.pos (Rods.r R i)
            + Mext R e ((angles R).getD 0).1 ((angles R).getD 0).2 ⬝ᵥ w' := by
    intro rods
    induction rods with
    | nil =>
      intro l _ hl
      simp at hl
      subst hl
      rfl
    | cons R rods ih =>
      intro l hP hl
      simp only [List.mapM_cons, Option.pure_def, Option.bind_eq_bind, Option.bind_eq_some_iff,
        Option.some.injEq] at hl
      obtain ⟨x, hx, l', hl', rfl⟩ := hl
      obtain ⟨ang, hang⟩ := angles_isSome (hP R (by simp))
      rw [List.map_cons, List.map_cons, ih l' (fun R' h' => hP R' (by simp [h'])) hl', hang]
      congr 1
      rw [hw] at hx
      exact C41_rod_power R e (hP R (by simp)).hN b.pos v' w' hang hx
  rw [← hF, ← hM]
  simp only [List.map_map, Function.comp_def, add_dotProduct]
  have hs1 := hsum (points.map fun p => p.getNetForceAndMass e.rho_w e.g b.pos b.w)
  simp only [List.map_map, Function.comp_def] at hs1
  rw [hp] at hs1
  have hs2 := hsum l
  rw [hr rods l hR hl] at hs2
  rw [← hown, ← hs1, ← hs2]
  ring

/-! ## C32: drag of bodies -/

/-- C32: drag force and drag moment of a body, with nonnegative drag areas, follow the relative
flow: their powers against the relative velocities are never negative. -/
theorem C32_body_drag (b : Body) (rho_w : ℝ) (hr : 0 ≤ rho_w) (h1 : ∀ i, 0 ≤ b.CdA i)
    (h2 : ∀ i, 0 ≤ b.CdAr i) :
    0 ≤ b.drag rho_w ⬝ᵥ (b.U - b.v) ∧ b.dragMoment rho_w ⬝ᵥ b.w ≤ 0 := by
  have key : ∀ (c u : V), (∀ i, 0 ≤ c i) → 0 ≤ ((b.OrMat * diagonal c * b.OrMatᵀ) *ᵥ u) ⬝ᵥ u := by
    intro c u hc
    have : ((b.OrMat * diagonal c * b.OrMatᵀ) *ᵥ u) ⬝ᵥ u
        = ∑ i, c i * ((b.OrMatᵀ *ᵥ u) i) ^ 2 := by
      rw [← mulVec_mulVec, ← mulVec_mulVec, dotProduct_comm, dotProduct_mulVec,
        ← mulVec_transpose, dotProduct]
      apply sum_congr rfl
      intro i _
      rw [mulVec_diagonal]
      ring
    rw [this]
    exact sum_nonneg fun i _ => mul_nonneg (hc i) (sq_nonneg _)
  constructor
  · unfold Body.drag
    simp only
    rw [smul_dotProduct, smul_eq_mul]
    have := Mooring.norm_nonneg (b.U - b.v)
    exact mul_nonneg (by positivity) (key _ _ h1)
  · unfold Body.dragMoment
    have h3 := key b.CdAr (-b.w) h2
    rw [dotProduct_neg] at h3
    rw [smul_dotProduct, smul_eq_mul]
    have := Mooring.norm_nonneg (-b.w)
    exact mul_nonpos_of_nonneg_of_nonpos (by positivity) (by linarith)

end MD.Bodies
