import Verif.Spec.OwnAxes
import Verif.Props.WholeGear
import Verif.Props.GearPart

/-!
# The formulas of the code do not depend on the axes in which a round body is described
-/

set_option linter.unusedSimpArgs false
set_option linter.unusedSectionVars false
set_option linter.unusedVariables false
set_option linter.unnecessarySeqFocus false

namespace MD.Whole

open MD.Mooring Matrix MD.Mat MD.Rot MD.Frame

theorem orMat_orth (q : Quat ℝ) : (orMat q)ᵀ * orMat q = 1 := by
  by_cases h : 0 < q.normSq
  · exact mul_eq_one_comm.1 (toMat_mul_transpose q.normalized (normSq_normalized q h))
  · have hw : q.w = 0 ∧ q.x = 0 ∧ q.y = 0 ∧ q.z = 0 := by
      unfold Quat.normSq at h
      refine ⟨?_, ?_, ?_, ?_⟩ <;> nlinarith [mul_self_nonneg q.w, mul_self_nonneg q.x, mul_self_nonneg q.y, mul_self_nonneg q.z]
    have e : orMat q = 1 := by
      unfold orMat Quat.normalized
      rw [if_neg h]
      ext i j
      fin_cases i <;> fin_cases j <;> simp [Quat.toMat, hw]
    rw [e, transpose_one, one_mul]

theorem orMat_dot' (q : Quat ℝ) (a : V) : (orMat q *ᵥ a) ⬝ᵥ (orMat q *ᵥ a) = a ⬝ᵥ a := by
  rw [dotProduct_mulVec, vecMul_mulVec, orMat_orth, vecMul_one]

theorem trim_unit (G : Gear) (hG : G.Trimmed) {u v : V} (hu : u ⬝ᵥ u = 1) (hv : v ⬝ᵥ v = 1) :
    orMat ((Rods.fromTwoVectors u v).getD (G.half u v)) *ᵥ u = v := by
  cases h : Rods.fromTwoVectors u v with
  | none => exact hG.half u v hu hv h
  | some q => exact Rods.rotates hu hv h

theorem mul_assoc_quat (a b c : Quat ℝ) : (a.mul b).mul c = a.mul (b.mul c) := by
  simp only [Quat.mul, Quat.mk.injEq]
  refine ⟨?_, ?_, ?_, ?_⟩ <;> ring

theorem mul_one_quat (q : Quat ℝ) : q.mul Quat.one = q := by
  simp [Quat.mul, Quat.one]

theorem yaw_zero : yaw 0 = Quat.one := by
  simp [yaw, Quat.one]

theorem byAngle_zero : (byAngle 0).Q = 1 := by
  rw [← yaw_toMat, yaw_zero, one_toMat]

theorem byAngle_neg (a : ℝ) : (byAngle (-a)).Q = (byAngle a).Qᵀ := by
  ext i j
  fin_cases i <;> fin_cases j <;> simp [byAngle]

theorem normalized_mul_right {u q : Quat ℝ} (hu : u.normSq = 1) : (q.mul u).normalized = q.normalized.mul u := by
  unfold Quat.normalized
  rw [normSq_mul, hu, mul_one]
  split_ifs with h
  · simp only [Quat.mul, Quat.smul, Quat.mk.injEq]
    refine ⟨?_, ?_, ?_, ?_⟩ <;> ring
  · rfl

theorem orMat_mul_right {u q : Quat ℝ} (hu : u.normSq = 1) (hq : 0 < q.normSq) : orMat (q.mul u) = orMat q * u.toMat := by
  unfold orMat
  rw [normalized_mul_right hu, toMat_mul _ _ (normSq_normalized q hq) hu]

theorem quatRate_right (w : V) (q u : Quat ℝ) : quatRate w (q.mul u) = (quatRate w q).mul u := by
  unfold quatRate
  rw [← mul_assoc_quat]
  exact (map_smul (before u) (1 / 2 : ℝ) _).symm

theorem round_diagonal (a : ℝ) {v : V} (hv : v 0 = v 1) : (byAngle a).Q * diagonal v * (byAngle a).Qᵀ = diagonal v := by
  have := Real.cos_sq_add_sin_sq a
  ext i j
  fin_cases i <;> fin_cases j <;> simp [byAngle, Matrix.mul_apply, vecMul_diagonal, Fin.sum_univ_three, hv] <;> grobner

/-- The coefficients of the body are the same in its other axes. -/
structure Fits (a : ℝ) (B : Bodies.Body) : Prop where
  I : (byAngle a).Q * diagonal B.bodyI * (byAngle a).Qᵀ = diagonal B.bodyI
  CdA : (byAngle a).Q * diagonal B.CdA * (byAngle a).Qᵀ = diagonal B.CdA
  CdAr : (byAngle a).Q * diagonal B.CdAr * (byAngle a).Qᵀ = diagonal B.CdAr
  Ca : (byAngle a).Q * diagonal B.Ca * (byAngle a).Qᵀ = diagonal B.Ca
  Car : (byAngle a).Q * diagonal B.Car * (byAngle a).Qᵀ = diagonal B.Car

theorem fits {a : ℝ} {B : Bodies.Body} (h : a = 0 ∨ Round B) : Fits a B := by
  rcases h with rfl | h
  · constructor <;> rw [byAngle_zero, one_mul, transpose_one, mul_one]
  · exact ⟨round_diagonal a h.I, round_diagonal a h.CdA, round_diagonal a h.CdAr, round_diagonal a h.Ca, round_diagonal a h.Car⟩

/-- The body in its other axes. -/
noncomputable def bodyOwn (a : ℝ) (B : Bodies.Body) : Bodies.Body :=
  { B with body_rCG := (byAngle a).Q *ᵥ B.body_rCG, OrMat := B.OrMat * (byAngle a).Qᵀ }

variable {a : ℝ} {B : Bodies.Body}

theorem undo (A m : M3 ℝ) : m * (byAngle a).Qᵀ * ((byAngle a).Q * A * (byAngle a).Qᵀ) * (m * (byAngle a).Qᵀ)ᵀ = m * A * mᵀ := by
  have e := (byAngle a).orth
  generalize (byAngle a).Q = U at *
  rw [transpose_mul, transpose_transpose]
  calc m * Uᵀ * (U * A * Uᵀ) * (U * mᵀ) = m * (Uᵀ * U) * A * (Uᵀ * U) * mᵀ := by noncomm_ring
    _ = _ := by rw [e]; noncomm_ring

theorem undo_diagonal {v : V} (h : (byAngle a).Q * diagonal v * (byAngle a).Qᵀ = diagonal v) (m : M3 ℝ) :
    m * (byAngle a).Qᵀ * diagonal v * (m * (byAngle a).Qᵀ)ᵀ = m * diagonal v * mᵀ := by
  have := undo (a := a) (diagonal v) m
  rwa [h] at this

theorem own_M0 (h : Fits a B) (rho_w : ℝ) : (bodyOwn a B).M0 rho_w = mass6 (byAngle a) (B.M0 rho_w) := by
  have e1 : ∀ c : ℝ, (byAngle a).Q * (c • (1 : M3 ℝ)) * (byAngle a).Qᵀ = c • 1 := by
    intro c
    rw [Matrix.mul_smul, mul_one, Matrix.smul_mul, orth']
  have e2 : mass6 (byAngle a) (fromBlocks (B.bodyM • 1) 0 0 (diagonal B.bodyI)) = fromBlocks (B.bodyM • 1) 0 0 (diagonal B.bodyI) := by
    rw [mass6_blocks, e1, h.I]
    simp
  have e3 : mass6 (byAngle a) (fromBlocks ((B.bodyV * rho_w) • diagonal B.Ca) 0 0 ((B.bodyV * rho_w) • diagonal B.Car)) =
      fromBlocks ((B.bodyV * rho_w) • diagonal B.Ca) 0 0 ((B.bodyV * rho_w) • diagonal B.Car) := by
    rw [mass6_blocks, Matrix.mul_smul, Matrix.smul_mul, h.Ca, Matrix.mul_smul, Matrix.smul_mul, h.Car]
    simp
  unfold Bodies.Body.M0
  rw [mass6_add, e3, ← translate6_turn (byAngle a) (byAngle_det a), e2]
  rfl

theorem own_ownM (h : Fits a B) (rho_w : ℝ) : (bodyOwn a B).ownM rho_w = B.ownM rho_w := by
  unfold Bodies.Body.ownM
  rw [own_M0 h, mass6_eq]
  unfold rotateMass6 rotateMass
  simp only [toBlocks_fromBlocks₁₁, toBlocks_fromBlocks₁₂, toBlocks_fromBlocks₂₁, toBlocks_fromBlocks₂₂, bodyOwn]
  rw [undo, undo, undo]

theorem own_rCG : (bodyOwn a B).rCG = B.rCG := by
  unfold Bodies.Body.rCG bodyOwn
  dsimp only
  rw [mulVec_mulVec, mul_assoc, (byAngle a).orth, mul_one]

theorem own_ownF (h : Fits a B) (rho_w g : ℝ) : (bodyOwn a B).ownF rho_w g = B.ownF rho_w g := by
  have e1 : (bodyOwn a B).drag rho_w = B.drag rho_w := by
    unfold Bodies.Body.drag bodyOwn
    dsimp only
    rw [undo_diagonal h.CdA]
  have e2 : (bodyOwn a B).dragMoment rho_w = B.dragMoment rho_w := by
    unfold Bodies.Body.dragMoment bodyOwn
    dsimp only
    rw [undo_diagonal h.CdAr]
  have e3 : (bodyOwn a B).Fgrav rho_w g = B.Fgrav rho_w g := rfl
  have e4 : (bodyOwn a B).w = B.w := rfl
  unfold Bodies.Body.ownF
  rw [own_ownM h, own_rCG, e1, e2, e3, e4]

variable (θ : ℝ) (d : V) (h : ℕ → ℝ) (g : ℝ) (G : Gear)

theorem own_bodyF (b : ℕ) (hb : h b = 0 ∨ Round (G.body b)) (x : V) (q q' : Quat ℝ) (v w : V) (m : M3 ℝ) (wt : Water)
    (lP : List (V × Option Bodies.Point)) (lR : List (V × V × RodOut)) :
    (G.reaxed h).bodyF b x q' v w (m * (byAngle (h b)).Qᵀ) wt lP lR = G.bodyF b x q v w m wt lP lR := by
  have hf : Fits (h b) ({ G.body b with pos := x, OrMat := m, v := v, w := w, U := wt.2.1 } : Bodies.Body) := by
    have := fits hb
    exact ⟨this.I, this.CdA, this.CdAr, this.Ca, this.Car⟩
  have e1 := own_ownF hf G.env.rho_w G.env.g
  have e2 := own_ownM hf G.env.rho_w
  unfold Gear.bodyF
  dsimp only
  have e3 : ({ (G.reaxed h).body b with pos := x, OrMat := m * (byAngle (h b)).Qᵀ, v := v, w := w, U := wt.2.1 } : Bodies.Body) =
      bodyOwn (h b) ({ G.body b with pos := x, OrMat := m, v := v, w := w, U := wt.2.1 } : Bodies.Body) := rfl
  have e4 : (G.reaxed h).env = G.env := rfl
  rw [e3, e4, e1, e2]

theorem own_mat {q : Quat ℝ} (hq : 0 < q.normSq) (v : V) :
    orMat ((yaw θ).mul (q.mul (yaw (-g)))) *ᵥ ((byAngle g).Q *ᵥ v) = (byAngle θ).Q *ᵥ (orMat q *ᵥ v) := by
  have hu := yaw_normSq (-g)
  rw [orMat_mul (yaw_normSq θ) (by rw [normSq_mul, hu, mul_one]; exact hq), orMat_mul_right hu hq, yaw_toMat, yaw_toMat, byAngle_neg,
    mulVec_mulVec, mul_assoc, mul_assoc, (byAngle g).orth, mul_one, ← mulVec_mulVec]

theorem Gear.Trimmed.rigged {G : Gear} (hG : G.Trimmed) (hL : ∀ i < G.nr, (G.rod i).N ≠ 0) : G.Rigged :=
  ⟨hL, hG.axes, fun b a ha hf v hv h => hG.half _ v (hG.axes b a ha hf).1 hv h⟩

theorem own_similar (hd : d 2 = 0) (hr : ∀ b, ∀ a ∈ G.rods b, a.1 < G.nr) (hL : ∀ i < G.nr, (G.rod i).N ≠ 0) (hG : G.Trimmed) (hb : ∀ b, h b = 0 ∨ Round (G.body b)) :
    Similar (ownTurned θ d h g) G.code (G.turned θ d h g).code :=
  have base : Similar (turnedBy θ d) G.code (G.seenFrom (byAngle θ) d).code :=
    code_similar (byAngle θ) d (yaw θ) G (byAngle_det θ) (yaw_normSq θ) (yaw_toMat θ) hd hr (.inr (hG.rigged hL))
  { len := base.len
    tim := base.tim
    hand := base.hand
    cross := base.cross
    nb := rfl
    nr := rfl
    np := rfl
    nl := rfl
    bkind := rfl
    rkind := rfl
    pkind := rfl
    pts := fun b => by
      show (G.pts (some b)).map _ = (G.pts (some b)).map fun a => (a.1, (1 : ℝ) • ((byAngle (h b)).Q *ᵥ a.2))
      simp only [one_smul]
    rods := fun b => by
      show (G.rods (some b)).map _ = (G.rods (some b)).map fun a => (a.1, (1 : ℝ) • ((byAngle (h b)).Q *ᵥ a.2.1), (byAngle (h b)).Q *ᵥ a.2.2)
      simp only [one_smul]
    groundPts := base.groundPts
    groundRods := base.groundRods
    ends := rfl
    endsA := rfl
    endsB := rfl
    rodN := rfl
    rodLen := base.rodLen
    lineN := rfl
    there := base.there
    mat := fun i q hq => by
      have hq' : 0 < q.normSq := hq
      show orMat ((yaw θ).mul (q.mul (yaw (-g)))) *ᵥ ((byAngle g).Q *ᵥ G.q0 i) = (byAngle θ).Q *ᵥ (orMat q *ᵥ G.q0 i)
      exact own_mat θ g hq' (G.q0 i)
    orth := fun b => (byAngle (h b)).orth
    matB := fun b q hq => by
      have hq' : 0 < q.normSq := hq
      show orMat ((yaw θ).mul (q.mul (yaw (-h b)))) = (byAngle θ).Q * orMat q * (byAngle (h b)).Qᵀ
      have hu := yaw_normSq (-h b)
      rw [orMat_mul (yaw_normSq θ) (by rw [normSq_mul, hu, mul_one]; exact hq'), orMat_mul_right hu hq', yaw_toMat, yaw_toMat, byAngle_neg, mul_assoc]
    posed := fun x => by
      show 0 < (euler2Quat x.2).normSq
      rw [euler2Quat_normSq]
      exact one_pos
    between := fun b a ha hf q hq => by
      show orMat ((Rods.fromTwoVectors ((byAngle g).Q *ᵥ G.q0 a.1) ((byAngle θ).Q *ᵥ (orMat q *ᵥ a.2.2))).getD
          (G.half ((byAngle g).Q *ᵥ G.q0 a.1) ((byAngle θ).Q *ᵥ (orMat q *ᵥ a.2.2)))) *ᵥ ((byAngle g).Q *ᵥ G.q0 a.1) =
        (byAngle θ).Q *ᵥ (orMat ((Rods.fromTwoVectors (G.q0 a.1) (orMat q *ᵥ a.2.2)).getD (G.half (G.q0 a.1) (orMat q *ᵥ a.2.2))) *ᵥ G.q0 a.1)
      obtain ⟨g1, g2⟩ := hG.axes b a ha hf
      have g3 : (orMat q *ᵥ a.2.2) ⬝ᵥ (orMat q *ᵥ a.2.2) = 1 := by rw [orMat_dot', g2]
      rw [trim_unit G hG g1 g3, trim_unit G hG (by rw [dot, g1]) (by rw [dot, g3])]
    one := fun i hi h0 => absurd h0 (hL i hi)
    ground := base.ground
    sea := base.sea
    moment := base.moment
    unit := base.unit
    lineF := base.lineF
    pointF := base.pointF
    pointA := base.pointA
    rodF := fun i hi q q' w a r rd wt lA lB _ hf => seen_rodF (byAngle θ) d (yaw θ) G (byAngle_det θ) hd i q q' w a r rd wt lA lB
      (hf.imp_left fun hp => by rw [← yaw_toMat, hp, one_toMat])
    rodA := base.rodA
    pinA := base.pinA
    quatA := fun w q => by
      have := base.quatA w (q.mul (yaw (-g)))
      rw [show G.code.quatA w (q.mul (yaw (-g))) = _ from quatRate_right ..] at this
      exact this
    quatB := fun b w q => by
      have := base.quatA w (q.mul (yaw (-h b)))
      rw [show G.code.quatA w (q.mul (yaw (-h b))) = _ from quatRate_right ..] at this
      exact this
    bodyF := fun b x q v w M wt lP lR => by
      have := base.bodyF b x q v w M wt lP lR
      rw [show (turnedBy θ d).own b = 1 from rfl, transpose_one, mul_one] at this
      refine Eq.trans ?_ this
      exact own_bodyF h (G.seenFrom (byAngle θ) d) b (hb b) _ ((turnedBy θ d).turnB b q) ((ownTurned θ d h g).turnB b q) _ _ _ _ _ _
    bodyA := base.bodyA
    bodyPinA := base.bodyPinA }

theorem yaw_mul (a b : ℝ) : (yaw a).mul (yaw b) = yaw (a + b) := by
  have e : (a + b) / 2 = a / 2 + b / 2 := by ring
  simp only [yaw, Quat.mul, e, Real.cos_add, Real.sin_add, Quat.mk.injEq]
  refine ⟨?_, ?_, ?_, ?_⟩ <;> ring

theorem level_yaw {a : V} (h0 : a 0 = 0) (h1 : a 1 = 0) : euler2Quat a = yaw (a 2) := by
  have e : a = 0 + ![0, 0, a 2] := by
    ext i
    fin_cases i <;> simp [h0, h1]
  rw [e, level_quat rfl rfl, euler2Quat_zero]
  simp [mul_one_quat]

theorem heading_quat (v : V) (a : ℝ) : euler2Quat (v + ![0, 0, a]) = (euler2Quat v).mul (yaw a) := by
  have e : (v 2 + a) / 2 = v 2 / 2 + a / 2 := by ring
  simp [euler2Quat, angleAxis, Quat.mul, yaw, e, Real.cos_add, Real.sin_add]
  refine ⟨?_, ?_, ?_, ?_⟩ <;> ring

theorem Gear.Upright.standing {G : Gear} {m : GearMem} (h : G.Upright m) (θ : ℝ) : G.Standing θ m :=
  ⟨h.ground, h.rods, fun b hb => .inr (h.body b hb), fun i hi => .inr (h.rod i hi)⟩

theorem own_course (a : ℝ) (x : (V × V) × (V × V)) (hx : θ = 0 ∨ Level x) :
    SameCourse (ownTurned θ d h g) G.code (G.turned θ d h g).code ((after (yaw θ)).comp (before (yaw (-a)))) x
      (((byAngle θ).Q *ᵥ x.1.1 + d, x.1.2 + ![0, 0, θ - a]), ratesTurned θ x.2) := by
  have base := level_course θ d G ((x.1.1, 0), (x.2.1, 0)) ⟨rfl, rfl, rfl, rfl⟩
  refine ⟨fun t => Prod.ext ?_ ?_, base.vel, (view_spin (byAngle θ) d (yaw θ) _).symm⟩
  · have := congrArg Prod.fst (base.pose t)
    exact this
  rcases hx with rfl | ⟨h0, h1, h2, h3⟩
  · show euler2Quat (x.1.2 + ![0, 0, 0 - a] + (1 * t) • ((byAngle 0).Q *ᵥ x.2.2)) = (yaw 0).mul ((euler2Quat (x.1.2 + t • x.2.2)).mul (yaw (-a)))
    rw [byAngle_zero, one_mulVec, one_mul, yaw_zero, one_mul_quat, zero_sub, add_right_comm]
    exact heading_quat _ (-a)
  show euler2Quat (x.1.2 + ![0, 0, θ - a] + (1 * t) • ((byAngle θ).Q *ᵥ x.2.2)) = (yaw θ).mul ((euler2Quat (x.1.2 + t • x.2.2)).mul (yaw (-a)))
  have e0 : (x.1.2 + ![0, 0, θ - a] + t • x.2.2) 0 = 0 := by
    show x.1.2 0 + 0 + t * x.2.2 0 = 0
    rw [h0, h2]
    ring
  have e1 : (x.1.2 + ![0, 0, θ - a] + t • x.2.2) 1 = 0 := by
    show x.1.2 1 + 0 + t * x.2.2 1 = 0
    rw [h1, h3]
    ring
  rw [level_turn θ h2 h3, one_mul, level_yaw e0 e1, level_yaw (by simp [h0, h2]) (by simp [h1, h3]), yaw_mul, yaw_mul]
  congr 1
  show x.1.2 2 + (θ - a) + t * x.2.2 2 = θ + (x.1.2 2 + t * x.2.2 2 + -a)
  ring

theorem own_asked (x : Asked) (hb : ∀ b < G.nb, G.bkind b = .COUPLED → θ = 0 ∨ Level (x.body b)) (hr : ∀ i < G.nr, G.rkind i = .COUPLED → θ = 0 ∨ Level (x.rod i)) :
    ViewAsked (ownTurned θ d h g) G.code (G.turned θ d h g).code x (x.turned θ d h g) where
  dt := (one_mul _).symm
  body b hb' hk := own_course θ d h g G (h b) _ (hb b hb' hk)
  bodyPin b _ _ := ⟨(view_place (byAngle θ) d (yaw θ) _).symm, (view_vel (byAngle θ) d (yaw θ) _).symm⟩
  rod i hi hk := own_course θ d h g G g _ (hr i hi hk)
  rodPin i _ _ := ⟨(view_place (byAngle θ) d (yaw θ) _).symm, (view_vel (byAngle θ) d (yaw θ) _).symm⟩
  point i _ _ := Prod.ext (view_place (byAngle θ) d (yaw θ) _).symm (view_vel (byAngle θ) d (yaw θ) _).symm

theorem own_mem (m : GearMem) (hm : G.Standing θ m) : ViewMem (ownTurned θ d h g) G.code (G.turned θ d h g).code m (ownMem θ d h g m) :=
  have base := turned_mem θ d G { m with
      rod := fun i => { m.rod i with ves := (((m.rod i).ves.1.1, 0), ((m.rod i).ves.2.1.1, 0), (m.rod i).ves.2.2) }
      body := fun b => { m.body b with ves := (((m.body b).ves.1.1, 0), ((m.body b).ves.2.1.1, 0), (m.body b).ves.2.2) } }
    ⟨hm.ground, hm.rods, fun _ _ => ⟨rfl, rfl, rfl, rfl⟩, fun _ _ => ⟨rfl, rfl, rfl, rfl⟩⟩
  { t := base.t
    line := fun k => ⟨(base.line k).s, (base.line k).F⟩
    point := fun i => ⟨(base.point i).r, (base.point i).rd, (base.point i).ves, (base.point i).F⟩
    rod := fun i => ⟨(base.rod i).pos, ⟨by
        have hq := hm.rods i
        show orMat ((yaw θ).mul ((m.rod i).quat.mul (yaw (-g)))) *ᵥ ((byAngle g).Q *ᵥ G.q0 i) = (byAngle θ).Q *ᵥ (orMat (m.rod i).quat *ᵥ G.q0 i)
        exact own_mat θ g hq (G.q0 i), fun _ => rfl⟩, (base.rod i).vel, (base.rod i).w, (base.rod i).q, (base.rod i).r, (base.rod i).rd,
      (base.rod i).acc, fun hk => ⟨own_course θ d h g G g _ (hm.rod i hk), ((base.rod i).ves hk).acc⟩,
      fun hk => ⟨⟨((base.rod i).heads hk).head.place, ((base.rod i).heads hk).head.vel⟩, ((base.rod i).heads hk).acc⟩, (base.rod i).F⟩
    body := fun b => ⟨(base.body b).pos, rfl, (base.body b).vel, (base.body b).w, rfl, (base.body b).acc,
      fun hk => ⟨own_course θ d h g G (h b) _ (hm.body b hk), ((base.body b).ves hk).acc⟩,
      fun hk => ⟨⟨((base.body b).heads hk).head.place, ((base.body b).heads hk).head.vel⟩, ((base.body b).heads hk).acc⟩, (base.body b).F⟩
    ground := base.ground
    ground' := base.ground' }

theorem own_sim (s : Time.Sim ℝ (State (Quat ℝ)) GearMem) (hm : G.Standing θ s.m) :
    ViewSim (ownTurned θ d h g) G.code (G.turned θ d h g).code s (ownSim θ d h g s) :=
  have base := turned_sim θ d G { s with m := { s.m with
      rod := fun i => { s.m.rod i with ves := 0 }
      body := fun b => { s.m.body b with ves := 0 } } }
    ⟨hm.ground, hm.rods, fun _ _ => ⟨rfl, rfl, rfl, rfl⟩, fun _ _ => ⟨rfl, rfl, rfl, rfl⟩⟩
  { t := base.t
    tl := base.tl
    n := rfl
    r := ⟨base.r.line, base.r.point, fun i _ _ => Prod.ext (Prod.ext (view_place (byAngle θ) d (yaw θ) _).symm rfl)
      (Prod.ext (view_vel (byAngle θ) d (yaw θ) _).symm (view_spin (byAngle θ) d (yaw θ) _).symm), fun b _ _ => Prod.ext (Prod.ext (view_place (byAngle θ) d (yaw θ) _).symm rfl)
      (Prod.ext (view_vel (byAngle θ) d (yaw θ) _).symm (view_spin (byAngle θ) d (yaw θ) _).symm)⟩
    rd := fun k => by
      have e : ∀ q : Quat ℝ, ((1 : ℝ) / 1) • q = q := fun q => by rw [div_one, one_smul]
      exact ⟨(base.rd k).line, (base.rd k).point,
        fun i _ _ => Prod.ext (Prod.ext (view_vel (byAngle θ) d (yaw θ) _).symm (e _).symm)
          (Prod.ext (view_acc (byAngle θ) d (yaw θ) _).symm (view_spinAcc (byAngle θ) d (yaw θ) _).symm), fun b _ _ => Prod.ext (Prod.ext (view_vel (byAngle θ) d (yaw θ) _).symm (e _).symm)
        (Prod.ext (view_acc (byAngle θ) d (yaw θ) _).symm (view_spinAcc (byAngle θ) d (yaw θ) _).symm)⟩
    m := own_mem θ d h g G s.m hm }

theorem turned_pts : ∃ f : Option ℕ → V → V, ∀ b, (G.turned θ d h g).pts b = (G.pts b).map fun a => (a.1, f b a.2) :=
  ⟨fun b v => b.elim ((byAngle θ).Q *ᵥ v + d) fun b => (byAngle (h b)).Q *ᵥ v, fun b => by cases b <;> rfl⟩

theorem turned_rods : ∃ f : Option ℕ → V × V → V × V, ∀ b, (G.turned θ d h g).rods b = (G.rods b).map fun a => (a.1, f b a.2) :=
  ⟨fun b v => b.elim ((byAngle θ).Q *ᵥ v.1 + d, (byAngle θ).Q *ᵥ v.2) fun b => ((byAngle (h b)).Q *ᵥ v.1, (byAngle (h b)).Q *ᵥ v.2),
    fun b => by cases b <;> rfl⟩

theorem turned_list (u : Holder) : u.list (G.turned θ d h g).code = u.list G.code := by
  cases u <;> rfl

theorem Gear.Rightly.turned (hG : G.Rightly) : (G.turned θ d h g).Rightly := by
  obtain ⟨f, hf⟩ := turned_pts θ d h g G
  obtain ⟨k, hg⟩ := turned_rods θ d h g G
  have hp : ∀ b, ∀ a ∈ (G.turned θ d h g).pts b, ∃ a' ∈ G.pts b, a = (a'.1, f b a'.2) := by
    intro b a ha
    rw [hf b, List.mem_map] at ha
    obtain ⟨a', h1, rfl⟩ := ha
    exact ⟨a', h1, rfl⟩
  have hr : ∀ b, ∀ a ∈ (G.turned θ d h g).rods b, ∃ a' ∈ G.rods b, a = (a'.1, k b a'.2) := by
    intro b a ha
    rw [hg b, List.mem_map] at ha
    obtain ⟨a', h1, rfl⟩ := ha
    exact ⟨a', h1, rfl⟩
  refine ⟨⟨?_, hG.sound.lineN, ?_, ?_, ?_, ?_, ?_, ?_, ?_⟩, hG.long, hG.held, ?_⟩
  · intro u u' a ha ha'
    rw [turned_list] at ha ha'
    exact hG.sound.once u u' a ha ha'
  · intro b b' a ha a' ha' e
    obtain ⟨c, hc, rfl⟩ := hp b a ha
    obtain ⟨c', hc', rfl⟩ := hp b' a' ha'
    obtain ⟨rfl, rfl⟩ := hG.sound.pts b b' c hc c' hc' e
    exact ⟨rfl, rfl⟩
  · intro b b' a ha a' ha' e
    obtain ⟨c, hc, rfl⟩ := hr b a ha
    obtain ⟨c', hc', rfl⟩ := hr b' a' ha'
    obtain ⟨rfl, rfl⟩ := hG.sound.rods b b' c hc c' hc' e
    exact ⟨rfl, rfl⟩
  · intro b a ha
    obtain ⟨c, hc, rfl⟩ := hp b a ha
    exact hG.sound.ptsKind b c hc
  · intro b a ha
    obtain ⟨c, hc, rfl⟩ := hr b a ha
    exact hG.sound.rodsKind b c hc
  · intro b a ha
    obtain ⟨c, hc, rfl⟩ := hr b a ha
    exact hG.sound.rodsNum b c hc
  · intro b a ha
    obtain ⟨c, hc, rfl⟩ := hp b a ha
    exact hG.sound.ptsNum b c hc
  · rintro b (⟨a, ha⟩ | ⟨a, ha⟩)
    · obtain ⟨c, hc, -⟩ := hp (some b) a ha
      exact hG.sound.bodyNum b (.inl ⟨c, hc⟩)
    · obtain ⟨c, hc, -⟩ := hr (some b) a ha
      exact hG.sound.bodyNum b (.inr ⟨c, hc⟩)
  · intro u a ha
    rw [turned_list] at ha
    exact hG.endsNum u a ha

end MD.Whole
