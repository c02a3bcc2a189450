import Verif.Lemmas.GearView
import Verif.Props.WholeView

/-!
# C99: with the forces that the code computes, neither the origin nor the directions of the horizontal axes matter
-/

set_option linter.unusedSimpArgs false
set_option linter.unusedSectionVars false
set_option linter.unusedVariables false
set_option linter.unnecessarySeqFocus false

namespace MD.Whole

open MD.Mooring Matrix MD.Mat MD.Rot MD.Frame

theorem yaw_normSq (θ : ℝ) : (yaw θ).normSq = 1 := by
  have := Real.cos_sq_add_sin_sq (θ / 2)
  simp only [yaw, Quat.normSq]
  linarith

theorem yaw_toMat (θ : ℝ) : (yaw θ).toMat = (byAngle θ).Q := by
  have h1 : Real.cos θ = 1 - 2 * Real.sin (θ / 2) ^ 2 := by
    have := Real.cos_sq_add_sin_sq (θ / 2)
    have h := Real.cos_two_mul (θ / 2)
    rw [mul_div_cancel₀ θ two_ne_zero] at h
    rw [h]
    linarith
  have h2 : Real.sin θ = 2 * Real.sin (θ / 2) * Real.cos (θ / 2) := by
    have h := Real.sin_two_mul (θ / 2)
    rwa [mul_div_cancel₀ θ two_ne_zero] at h
  ext i j
  fin_cases i <;> fin_cases j <;> simp [yaw, Quat.toMat, byAngle, h1, h2] <;> ring

theorem level_quat {a : V} (h0 : a 0 = 0) (h1 : a 1 = 0) (θ : ℝ) : euler2Quat (a + ![0, 0, θ]) = (yaw θ).mul (euler2Quat a) := by
  have e : (a 2 + θ) / 2 = θ / 2 + a 2 / 2 := by ring
  simp [euler2Quat, angleAxis, Quat.mul, yaw, h0, h1, e, Real.cos_add, Real.sin_add]
  ring

theorem level_turn (θ : ℝ) {w : V} (h0 : w 0 = 0) (h1 : w 1 = 0) : (byAngle θ).Q *ᵥ w = w := by
  ext i
  fin_cases i <;> simp [byAngle, mulVec, dotProduct, Fin.sum_univ_three, h0, h1]

variable (θ : ℝ) (d : V) (G : Gear)

theorem level_course (x : (V × V) × (V × V)) (h : Level x) :
    SameCourse (turnedBy θ d) G.code (G.seenFrom (byAngle θ) d).code (after (yaw θ)) x (poseTurned θ d x.1, ratesTurned θ x.2) := by
  obtain ⟨h0, h1, h2, h3⟩ := h
  refine ⟨fun t => Prod.ext ?_ ?_, (view_vel ..).symm, (view_spin ..).symm⟩
  · show (byAngle θ).Q *ᵥ x.1.1 + d + (1 * t) • ((byAngle θ).Q *ᵥ x.2.1) = (turnedBy θ d).place (x.1.1 + t • x.2.1)
    rw [view_place, mulVec_add, mulVec_smul, one_mul, add_right_comm]
  · show euler2Quat (x.1.2 + ![0, 0, θ] + (1 * t) • ((byAngle θ).Q *ᵥ x.2.2)) = (yaw θ).mul (euler2Quat (x.1.2 + t • x.2.2))
    rw [level_turn θ h2 h3, one_mul, add_right_comm]
    exact level_quat (by simp [h0, h2]) (by simp [h1, h3]) θ

theorem turned_asked (x : Asked) (hb : ∀ b < G.nb, G.bkind b = .COUPLED → Level (x.body b)) (hr : ∀ i < G.nr, G.rkind i = .COUPLED → Level (x.rod i)) :
    ViewAsked (turnedBy θ d) G.code (G.seenFrom (byAngle θ) d).code x (x.turnedBy θ d) where
  dt := (one_mul _).symm
  body b hb' hk := level_course θ d G _ (hb b hb' hk)
  bodyPin b _ _ := ⟨(view_place ..).symm, (view_vel ..).symm⟩
  rod i hi hk := level_course θ d G _ (hr i hi hk)
  rodPin i _ _ := ⟨(view_place ..).symm, (view_vel ..).symm⟩
  point i _ _ := Prod.ext (view_place ..).symm (view_vel ..).symm

theorem turned_mem (m : GearMem) (h : G.Upright m) :
    ViewMem (turnedBy θ d) G.code (G.seenFrom (byAngle θ) d).code m (memTurned θ d m) where
  t := (one_mul _).symm
  line k := ⟨rfl, rfl⟩
  point i := ⟨(view_place ..).symm, (view_vel ..).symm, fun _ => Prod.ext (view_place ..).symm (view_vel ..).symm, rfl⟩
  rod i := ⟨(view_place ..).symm, ⟨by
      show orMat ((yaw θ).mul (m.rod i).quat) *ᵥ G.q0 i = (byAngle θ).Q *ᵥ (orMat (m.rod i).quat *ᵥ G.q0 i)
      rw [orMat_mul (yaw_normSq θ) (h.rods i), yaw_toMat, mulVec_mulVec], fun _ => rfl⟩, (view_vel ..).symm, (view_spin ..).symm, rfl,
    fun _ => (view_place ..).symm, fun _ => (view_vel ..).symm, Prod.ext (view_acc ..).symm (view_spinAcc ..).symm,
    fun hk => ⟨level_course θ d G _ (h.rod i hk), Prod.ext (view_acc ..).symm (view_spinAcc ..).symm⟩,
    fun _ => ⟨⟨(view_place ..).symm, (view_vel ..).symm⟩, (view_acc ..).symm⟩, rfl⟩
  body b := ⟨(view_place ..).symm, rfl, (view_vel ..).symm, (view_spin ..).symm, by
      show _ = (byAngle θ).Q * (m.body b).orMat * (1 : M3 ℝ)ᵀ
      rw [transpose_one, mul_one]
      rfl, Prod.ext (view_acc ..).symm (view_spinAcc ..).symm,
    fun hk => ⟨level_course θ d G _ (h.body b hk), Prod.ext (view_acc ..).symm (view_spinAcc ..).symm⟩,
    fun _ => ⟨⟨(view_place ..).symm, (view_vel ..).symm⟩, (view_acc ..).symm⟩, rfl⟩
  ground := h.ground
  ground' := h.ground

theorem turned_sim (s : Time.Sim ℝ (State (Quat ℝ)) GearMem) (h : G.Upright s.m) :
    ViewSim (turnedBy θ d) G.code (G.seenFrom (byAngle θ) d).code s (simTurned θ d s) where
  t := (one_mul _).symm
  tl := (one_mul _).symm
  n := rfl
  r := ⟨fun _ _ _ _ => Prod.ext (view_place ..).symm (view_vel ..).symm, fun _ _ _ => Prod.ext (view_place ..).symm (view_vel ..).symm,
    fun _ _ _ => Prod.ext (Prod.ext (view_place ..).symm rfl) (Prod.ext (view_vel ..).symm (view_spin ..).symm),
    fun _ _ _ => Prod.ext (Prod.ext (view_place ..).symm rfl) (Prod.ext (view_vel ..).symm (view_spin ..).symm)⟩
  rd k := by
    have e : ∀ q : Quat ℝ, ((1 : ℝ) / 1) • (yaw θ).mul q = (yaw θ).mul q := fun q => by rw [div_one, one_smul]
    exact ⟨fun _ _ _ _ => Prod.ext (view_vel ..).symm (view_acc ..).symm, fun _ _ _ => Prod.ext (view_vel ..).symm (view_acc ..).symm,
      fun _ _ _ => Prod.ext (Prod.ext (view_vel ..).symm (e _).symm) (Prod.ext (view_acc ..).symm (view_spinAcc ..).symm),
      fun _ _ _ => Prod.ext (Prod.ext (view_vel ..).symm (e _).symm) (Prod.ext (view_acc ..).symm (view_spinAcc ..).symm)⟩
  m := turned_mem θ d G s.m h

/-- C99: a simulation of bodies, rods, points and lines, with all forces of the code, runs as it does with the horizontal axes turned by any
angle and another origin on the surface, with every explicit scheme and the implicit Euler scheme, as long as no rod is almost but not quite
vertical when forces are computed, and no quaternion vanishes (this is recorded by the first simulation).  What is asked for of bodies and rods
that are moved is level, as only then angles can be turned by adding to one of them.  The rods have a length. -/
theorem C99_gear_partial (hd : d 2 = 0) (ht : ∀ b, ∀ a ∈ G.rods b, a.1 < G.nr) (hG : G.Rigged) (relax : ℕ → ℕ → ℝ)
    (conv conv' : State (Quat ℝ) × State (Quat ℝ) → State (Quat ℝ) × State (Quat ℝ) → Bool) (fr : Fresh) (sc : Time.Scheme ℝ) (hsc : Plain sc)
    (dtM0 : ℝ) (fuel : ℕ) (calls : List Asked)
    (hb : ∀ x ∈ calls, ∀ b < G.nb, G.bkind b = .COUPLED → Level (x.body b)) (hr : ∀ x ∈ calls, ∀ i < G.nr, G.rkind i = .COUPLED → Level (x.rod i))
    (s : Time.Sim ℝ (State (Quat ℝ)) GearMem) (h : G.Upright s.m) (w : Time.Sim ℝ (State (Quat ℝ)) (GearMem × Prop))
    (he : calls.foldlM (watchedCall (turnedBy θ d) G.code ((Each.code G.code.pose relax).aux conv fr) sc dtM0 fuel)
      ⟨s.t, s.tl, s.r, s.rd, s.n, (s.m, False)⟩ = some w) (hn : ¬ w.m.2) :
    ∃ e e', calls.foldlM (call G.code ((Each.code G.code.pose relax).aux conv fr) sc dtM0 fuel) s = some e ∧ e.m = w.m.1 ∧
      (calls.map (Asked.turnedBy θ d)).foldlM (call (G.seenFrom (byAngle θ) d).code ((Each.code G.code.pose relax).aux conv' fr) sc dtM0 fuel)
        (simTurned θ d s) = some e' ∧
      (∀ i, (e'.m.point i).r = (byAngle θ).Q *ᵥ (e.m.point i).r + d ∧ (e'.m.point i).rd = (byAngle θ).Q *ᵥ (e.m.point i).rd ∧
        (e'.m.point i).F.map (fun p => (p.doRHS G.env.rho_w G.env.g).1) =
          (e.m.point i).F.map fun p => (byAngle θ).Q *ᵥ (p.doRHS G.env.rho_w G.env.g).1) ∧
      (∀ i, (e'.m.rod i).pos = (byAngle θ).Q *ᵥ (e.m.rod i).pos + d ∧ (e'.m.rod i).vel = (byAngle θ).Q *ᵥ (e.m.rod i).vel ∧
        (e'.m.rod i).w = (byAngle θ).Q *ᵥ (e.m.rod i).w ∧ (e'.m.rod i).q = (byAngle θ).Q *ᵥ (e.m.rod i).q ∧
        ∀ x w, (e'.m.rod i).F.about ((byAngle θ).Q *ᵥ x + d) ((byAngle θ).Q *ᵥ w) = ((e.m.rod i).F.about x w).map (Frame.load (byAngle θ))) ∧
      (∀ b, (e'.m.body b).pos = (byAngle θ).Q *ᵥ (e.m.body b).pos + d ∧ (e'.m.body b).quat = (yaw θ).mul (e.m.body b).quat ∧
        (e'.m.body b).vel = (byAngle θ).Q *ᵥ (e.m.body b).vel ∧ (e'.m.body b).w = (byAngle θ).Q *ᵥ (e.m.body b).w ∧
        (e'.m.body b).F = (e.m.body b).F.map (Frame.load (byAngle θ))) ∧
      (∀ k j, (e'.m.line k).s.r j = (byAngle θ).Q *ᵥ (e.m.line k).s.r j + d ∧ (e'.m.line k).s.rd j = (byAngle θ).Q *ᵥ (e.m.line k).s.rd j) ∧
      (∀ k, fairTen ((G.seenFrom (byAngle θ) d).lineNow k (e'.m.line k).s) = fairTen (G.lineNow k (e.m.line k).s)) := by
  have hs : Similar (turnedBy θ d) G.code (G.seenFrom (byAngle θ) d).code :=
    code_similar (byAngle θ) d (yaw θ) G (byAngle_det θ) (yaw_normSq θ) (yaw_toMat θ) hd ht (.inr hG)
  have hc : List.Forall₂ (ViewAsked (turnedBy θ d) G.code (G.seenFrom (byAngle θ) d).code) calls (calls.map (Asked.turnedBy θ d)) := by
    rw [List.forall₂_map_right_iff, List.forall₂_same]
    exact fun x hx => turned_asked θ d G x (hb x hx) (hr x hx)
  obtain ⟨e, e', h1, h2, h3, h4⟩ := C99_whole_partial hs G.code.pose relax conv conv' fr sc hsc dtM0 fuel calls _ hc s _ (turned_sim θ d G s h) w he hn
  have e1 : (turnedBy θ d).tim * dtM0 = dtM0 := one_mul _
  rw [e1] at h3
  refine ⟨e, e', h1, h2, h3, fun i => ⟨?_, ?_, ?_⟩, fun i => ⟨?_, ?_, ?_, (h4.m.rod i).q, ?_⟩, fun b => ⟨?_, (h4.m.body b).quat, ?_, ?_, (h4.m.body b).F⟩,
    fun k j => ⟨?_, ?_⟩, fun k => ?_⟩
  · rw [(h4.m.point i).r, view_place]
  · rw [(h4.m.point i).rd, view_vel]
  · rw [(h4.m.point i).F]
    show ((e.m.point i).F.map (point (byAngle θ) d)).map _ = _
    rw [Option.map_map]
    congr 1
    funext p
    show ((point (byAngle θ) d p).doRHS G.env.rho_w G.env.g).1 = _
    rw [C99_point]
  · rw [(h4.m.rod i).pos, view_place]
  · rw [(h4.m.rod i).vel, view_vel]
  · rw [(h4.m.rod i).w, view_spin]
  · intro x w
    rw [(h4.m.rod i).F]
    show ((e.m.rod i).F.about (back (byAngle θ) d ((byAngle θ).Q *ᵥ x + d)) ((byAngle θ).Qᵀ *ᵥ ((byAngle θ).Q *ᵥ w))).map _ = _
    rw [back_place, mulVec_mulVec, (byAngle θ).orth, one_mulVec]
  · rw [(h4.m.body b).pos, view_place]
  · rw [(h4.m.body b).vel, view_vel]
  · rw [(h4.m.body b).w, view_spin]
  · rw [(h4.m.line k).s]
    exact view_place ..
  · rw [(h4.m.line k).s]
    exact view_vel ..
  · rw [(h4.m.line k).s, seen_line]
    exact (C99_reported _ (seen_env (byAngle θ) d (yaw θ) G hd fun _ => (0, 0, 0, 0)) 0).2.1

/-! ## Another origin -/

theorem one_mul_vec (x : V) : ahead.Q *ᵥ x = x := one_mulVec x

theorem after_one : after Quat.one = LinearMap.id := by
  ext q : 1
  exact one_mul_quat q

theorem load_one (x : V × V × M6 ℝ) : Frame.load ahead x = x := by
  obtain ⟨a, b, M⟩ := x
  simp only [Frame.load, mass6, ahead, one_mulVec, one_mul, transpose_one, mul_one, fromBlocks_one]

theorem stuff_one (x : V × V × M3 ℝ) : stuff ahead x = x := by
  obtain ⟨a, b, M⟩ := x
  simp [stuff, ahead]

theorem point_one (p : Bodies.Point) : point ahead d p = { p with r := p.r + d } := by
  unfold point
  have e : p.attached.map (stuff ahead) = p.attached := by
    rw [show stuff ahead = id from funext stuff_one, List.map_id]
  rw [e]
  simp [ahead]

theorem moved_place (x : V) : (movedBy d).place x = x + d := by rw [view_place, one_mul_vec]

theorem moved_vel (x : V) : (movedBy d).vel x = x := by rw [view_vel, one_mul_vec]

theorem moved_spin (x : V) : (movedBy d).spin x = x := by rw [view_spin, one_mul_vec]

theorem moved_acc (x : V) : (movedBy d).acc x = x := by rw [view_acc, one_mul_vec]

theorem moved_spinAcc (x : V) : (movedBy d).spinAcc x = x := by rw [view_spinAcc, one_mul_vec]

theorem moved_turn (q : Quat ℝ) : (movedBy d).turn q = q := one_mul_quat q

theorem moved_turnB (b : ℕ) (q : Quat ℝ) : (movedBy d).turnB b q = q := one_mul_quat q

theorem moved_course (x : (V × V) × (V × V)) :
    SameCourse (movedBy d) G.code (G.seenFrom ahead d).code (after Quat.one) x ((x.1.1 + d, x.1.2), x.2) := by
  refine ⟨fun t => Prod.ext ?_ ?_, (moved_vel ..).symm, (moved_spin ..).symm⟩
  · show x.1.1 + d + (1 * t) • x.2.1 = (movedBy d).place (x.1.1 + t • x.2.1)
    rw [moved_place, one_mul, add_right_comm]
  · show euler2Quat (x.1.2 + (1 * t) • x.2.2) = (movedBy d).turn (euler2Quat (x.1.2 + t • x.2.2))
    rw [moved_turn, one_mul]

theorem moved_asked (x : Asked) : ViewAsked (movedBy d) G.code (G.seenFrom ahead d).code x (x.movedBy d) where
  dt := (one_mul _).symm
  body b _ _ := moved_course d G _
  bodyPin b _ _ := ⟨(moved_place ..).symm, (moved_vel ..).symm⟩
  rod i _ _ := moved_course d G _
  rodPin i _ _ := ⟨(moved_place ..).symm, (moved_vel ..).symm⟩
  point i _ _ := Prod.ext (moved_place ..).symm (moved_vel ..).symm

theorem moved_mem (m : GearMem) (h : IsGround m.ground) :
    ViewMem (movedBy d) G.code (G.seenFrom ahead d).code m (memMoved d m) where
  t := (one_mul _).symm
  line k := ⟨by
    unfold View.shape
    simp only [moved_place, moved_vel]
    simp [memMoved, MD.Whole.seenFrom, ahead], by
    show (m.line k).F = ⟨fun e => ((m.line k).F.stuff e).map (stuff ahead), (m.line k).F.curv⟩
    rw [show stuff ahead = id from funext stuff_one]
    simp⟩
  point i := ⟨(moved_place ..).symm, (moved_vel ..).symm, fun _ => Prod.ext (moved_place ..).symm (moved_vel ..).symm, by
    show (m.point i).F.map _ = (m.point i).F.map (point ahead d)
    congr 1
    funext p
    exact (point_one d p).symm⟩
  rod i := ⟨(moved_place ..).symm, ⟨(one_mul_vec _).symm, fun _ => (moved_turn ..).symm⟩, (moved_vel ..).symm, (moved_spin ..).symm, (one_mul_vec _).symm,
    fun _ => (moved_place ..).symm, fun _ => (moved_vel ..).symm, Prod.ext (moved_acc ..).symm (moved_spinAcc ..).symm,
    fun hk => ⟨moved_course d G _, Prod.ext (moved_acc ..).symm (moved_spinAcc ..).symm⟩,
    fun _ => ⟨⟨(moved_place ..).symm, (moved_vel ..).symm⟩, (moved_acc ..).symm⟩, by
    show (⟨_, _, _⟩ : RodOut) = ⟨(m.rod i).F.N, ahead.Q *ᵥ (m.rod i).F.rA + d,
      fun x w => ((m.rod i).F.about (back ahead d x) (ahead.Qᵀ *ᵥ w)).map (Frame.load ahead)⟩
    rw [show Frame.load ahead = id from funext load_one]
    simp [ahead, back]⟩
  body b := ⟨(moved_place ..).symm, (moved_turnB d b _).symm, (moved_vel ..).symm, (moved_spin ..).symm, by
      show _ = 1 * (m.body b).orMat * (1 : M3 ℝ)ᵀ
      rw [transpose_one, mul_one, one_mul]
      rfl, Prod.ext (moved_acc ..).symm (moved_spinAcc ..).symm,
    fun hk => ⟨moved_course d G _, Prod.ext (moved_acc ..).symm (moved_spinAcc ..).symm⟩,
    fun _ => ⟨⟨(moved_place ..).symm, (moved_vel ..).symm⟩, (moved_acc ..).symm⟩, by
    show (m.body b).F = (m.body b).F.map (Frame.load ahead)
    rw [show Frame.load ahead = id from funext load_one]
    simp⟩
  ground := h
  ground' := h

theorem moved_sim (s : Time.Sim ℝ (State (Quat ℝ)) GearMem) (h : IsGround s.m.ground) :
    ViewSim (movedBy d) G.code (G.seenFrom ahead d).code s (simMoved d s) where
  t := (one_mul _).symm
  tl := (one_mul _).symm
  n := rfl
  r := ⟨fun _ _ _ _ => Prod.ext (moved_place ..).symm (moved_vel ..).symm, fun _ _ _ => Prod.ext (moved_place ..).symm (moved_vel ..).symm,
    fun _ _ _ => Prod.ext (Prod.ext (moved_place ..).symm (moved_turn ..).symm) (Prod.ext (moved_vel ..).symm (moved_spin ..).symm),
    fun b _ _ => Prod.ext (Prod.ext (moved_place ..).symm (moved_turnB d b _).symm) (Prod.ext (moved_vel ..).symm (moved_spin ..).symm)⟩
  rd k := by
    have e : ∀ q : Quat ℝ, ((1 : ℝ) / 1) • (movedBy d).turn q = q := fun q => by rw [div_one, one_smul, moved_turn]
    exact ⟨fun _ _ _ _ => Prod.ext (moved_vel ..).symm (moved_acc ..).symm, fun _ _ _ => Prod.ext (moved_vel ..).symm (moved_acc ..).symm,
      fun _ _ _ => Prod.ext (Prod.ext (moved_vel ..).symm (e _).symm) (Prod.ext (moved_acc ..).symm (moved_spinAcc ..).symm),
      fun _ _ _ => Prod.ext (Prod.ext (moved_vel ..).symm (e _).symm) (Prod.ext (moved_acc ..).symm (moved_spinAcc ..).symm)⟩
  m := moved_mem d G s.m h

/-- C99: a simulation of bodies, rods, points and lines, with all forces of the code, runs as it does with another origin on the surface, whatever
is asked for, and with every scheme but that of Anderson. -/
theorem C99_gear_shift_partial (hd : d 2 = 0) (ht : ∀ b, ∀ a ∈ G.rods b, a.1 < G.nr) (relax : ℕ → ℕ → ℝ)
    (conv conv' : State (Quat ℝ) × State (Quat ℝ) → State (Quat ℝ) × State (Quat ℝ) → Bool) (fr : Fresh) (sc : Time.Scheme ℝ)
    (hsc : Relate.NotAnderson sc) (dtM0 : ℝ) (fuel : ℕ) (calls : List Asked) (s e : Time.Sim ℝ (State (Quat ℝ)) GearMem) (h : IsGround s.m.ground)
    (he : calls.foldlM (call G.code ((Each.code G.code.pose relax).aux conv fr) sc dtM0 fuel) s = some e) :
    ∃ e', (calls.map (Asked.movedBy d)).foldlM (call (G.seenFrom ahead d).code ((Each.code G.code.pose relax).aux conv' fr) sc dtM0 fuel)
        (simMoved d s) = some e' ∧
      (∀ i, (e'.m.point i).r = (e.m.point i).r + d ∧ (e'.m.point i).rd = (e.m.point i).rd ∧
        (e'.m.point i).F = (e.m.point i).F.map fun p => { p with r := p.r + d }) ∧
      (∀ i, (e'.m.rod i).pos = (e.m.rod i).pos + d ∧ (e'.m.rod i).vel = (e.m.rod i).vel ∧ (e'.m.rod i).w = (e.m.rod i).w ∧
        (e'.m.rod i).q = (e.m.rod i).q ∧ ∀ x w, (e'.m.rod i).F.about (x + d) w = (e.m.rod i).F.about x w) ∧
      (∀ b, (e'.m.body b).pos = (e.m.body b).pos + d ∧ (e'.m.body b).quat = (e.m.body b).quat ∧ (e'.m.body b).vel = (e.m.body b).vel ∧
        (e'.m.body b).w = (e.m.body b).w ∧ (e'.m.body b).F = (e.m.body b).F) ∧
      (∀ k j, (e'.m.line k).s.r j = (e.m.line k).s.r j + d ∧ (e'.m.line k).s.rd j = (e.m.line k).s.rd j) ∧
      (∀ k, fairTen ((G.seenFrom ahead d).lineNow k (e'.m.line k).s) = fairTen (G.lineNow k (e.m.line k).s)) := by
  have hs : Similar (movedBy d) G.code (G.seenFrom ahead d).code :=
    code_similar ahead d Quat.one G det_one (by simp [Quat.normSq, Quat.one]) one_toMat hd ht (.inl rfl)
  have hc : List.Forall₂ (ViewAsked (movedBy d) G.code (G.seenFrom ahead d).code) calls (calls.map (Asked.movedBy d)) := by
    rw [List.forall₂_map_right_iff, List.forall₂_same]
    exact fun x _ => moved_asked d G x
  obtain ⟨e', h3, -, -, -, -, h4⟩ := C99_whole_shift_partial rfl rfl rfl after_one (fun _ => after_one) hs (fun _ => .inl rfl) (fun _ => .inl rfl) G.code.pose relax conv conv' fr sc hsc
    dtM0 fuel calls _ hc s _ e (moved_sim d G s h) he
  refine ⟨e', h3, fun i => ⟨?_, ?_, ?_⟩, fun i => ⟨?_, ?_, ?_, ?_, ?_⟩, fun b => ⟨?_, ?_, ?_, ?_, ?_⟩,
    fun k j => ⟨?_, ?_⟩, fun k => ?_⟩
  · rw [(h4.m.point i).r, moved_place]
  · rw [(h4.m.point i).rd, moved_vel]
  · rw [(h4.m.point i).F]
    show (e.m.point i).F.map (point ahead d) = _
    rw [show point ahead d = _ from funext (point_one d)]
  · rw [(h4.m.rod i).pos, moved_place]
  · rw [(h4.m.rod i).vel, moved_vel]
  · rw [(h4.m.rod i).w, moved_spin]
  · rw [(h4.m.rod i).q]
    exact one_mul_vec _
  · intro x w
    rw [(h4.m.rod i).F]
    show ((e.m.rod i).F.about (back ahead d (x + d)) (ahead.Qᵀ *ᵥ w)).map (Frame.load ahead) = _
    rw [show Frame.load ahead = id from funext load_one]
    simp [ahead, back]
  · rw [(h4.m.body b).pos, moved_place]
  · rw [(h4.m.body b).quat, moved_turnB]
  · rw [(h4.m.body b).vel, moved_vel]
  · rw [(h4.m.body b).w, moved_spin]
  · rw [(h4.m.body b).F]
    show (e.m.body b).F.map (Frame.load ahead) = _
    rw [show Frame.load ahead = id from funext load_one]
    simp
  · rw [(h4.m.line k).s]
    exact moved_place ..
  · rw [(h4.m.line k).s]
    exact moved_vel ..
  · rw [(h4.m.line k).s, seen_line]
    exact (C99_reported _ (seen_env ahead d Quat.one G hd fun _ => (0, 0, 0, 0)) 0).2.1

/-! ## Cases -/

theorem plain_watching {E M : Type} [AddCommGroup E] [Module ℝ E] {good : E → Prop} {fit : M → Prop} (hg : ∀ e, good e) (hf : ∀ m, fit m)
    (mc : Time.Machine ℝ E M) : Relate.Alike (1 : ℝ) (fun _ => True) mc (watch good fit mc) (· = ·) (· = ·) (fun m p => p = (m, False)) where
  zero := rfl
  add := by
    rintro a _ b _ rfl rfl
    rfl
  smul := by
    rintro x a _ rfl
    rfl
  move := by
    rintro x a _ b _ rfl rfl
    rw [one_mul]
  update := by
    rintro t tl e _ m _ rfl rfl
    rw [one_mul, one_mul]
    simp [watch, hg]
  rate := by
    rintro m _ rfl _
    rfl
  eval := by
    rintro m _ rfl _
    simp [watch, hf]
  next := by
    rintro m _ rfl
    rfl
  okU _ _ _ _ _ := trivial
  okE _ _ := trivial
  okN _ _ := trivial

theorem never_met {Q FL FP FR FB Wt : Type} [AddCommGroup Q] [Module ℝ Q] {o : View Q FL FP FR FB Wt} {S : System Q FL FP FR FB Wt}
    (hg : ∀ e, OkState o S e) (hf : ∀ m, FitMem o S m) (ax : Time.Aux ℝ (State Q)) (sc : Time.Scheme ℝ) (dtM0 : ℝ) (fuel : ℕ) (calls : List Asked)
    (s e : Time.Sim ℝ (State Q) (Mem Q FL FP FR FB)) (he : calls.foldlM (call S ax sc dtM0 fuel) s = some e) :
    ∃ w, calls.foldlM (watchedCall o S ax sc dtM0 fuel) ⟨s.t, s.tl, s.r, s.rd, s.n, (s.m, False)⟩ = some w ∧ ¬ w.m.2 := by
  rw [call_callOn] at he
  have hl : List.Forall₂ (fun x x' : Asked => x = x') calls calls := List.forall₂_same.2 fun _ _ => rfl
  obtain ⟨-, w, h1, h2⟩ := same_calls one_pos (plain_watching hg hf (machine S)) (aux_refl ax) sc
    (.inr (by rintro ⟨a, b⟩ ⟨_, _⟩ ⟨c, d⟩ ⟨_, _⟩ rfl rfl rfl rfl; rfl)) (ini' := fun x p => (initiate S x p.1, p.2))
    (by rintro x _ m _ rfl rfl; rfl) (by rintro x _ rfl; rw [one_mul]) (fun _ _ _ => trivial) dtM0 fuel hl s e ⟨s.t, s.tl, s.r, s.rd, s.n, (s.m, False)⟩
    ⟨(one_mul _).symm, (one_mul _).symm, rfl, fun _ _ => rfl, fun _ => rfl, rfl⟩ he trivial
  rw [one_mul] at h1
  rw [watchedCall_callOn]
  exact ⟨w, h1, by rw [h2.m]; exact id⟩

/-- A ship that is moved, with a mooring line of three segments to an anchor, and as many rods as wished, of which the first is fixed to the
ship and hangs down, in a current. -/
noncomputable def moored (nr : ℕ) : Gear where
  nb := 1
  nr := nr
  np := 2
  nl := 1
  bkind _ := .COUPLED
  rkind i := if i = 0 then .FIXED else .FREE
  pkind _ := .FIXED
  pts
    | none => [(0, ![100, 0, -50])]
    | some 0 => [(1, ![5, 0, -2])]
    | some _ => []
  rods
    | some 0 => if nr = 0 then [] else [(0, ![0, 0, -1], ![0, 0, -1])]
    | _ => []
  ends
    | 0 => [(0, .BOTTOM)]
    | 1 => [(0, .TOP)]
    | _ => []
  endsA _ := []
  endsB _ := []
  q0 _ := ![0, 0, 1]
  line _ := ⟨3, 1 / 10, Real.pi / 400, 5000, 10 ^ 9, 0, 0, 1, 0, 1, 0, none, none, none, false, fun _ => 37, fun _ => 37 * (Real.pi / 400), 0, 0,
    .PINNED, .PINNED, 0, 0, 0, false⟩
  point _ := ⟨0, 0, 0, 0, 0, 0, 0, 0, []⟩
  rod _ := ⟨2, 1 / 2, 5000, 1, 0, 1, 1, 1, 4, 0, 0, 0, 0, [], []⟩
  body _ := ⟨10 ^ 6, 1000, 0, ![10 ^ 7, 10 ^ 7, 10 ^ 7], 0, 0, 0, 0, 0, 1, 0, 0, 0⟩
  env := ⟨1025, 98 / 10, 10 ^ 5, 10 ^ 4, 0, 0, 0, fun x _ => -50 - x / 100, fun _ => 0, fun _ => 0, fun _ => 0, fun _ => 0⟩
  kin _ x := (0, ![1 + x 2 / 100, 1 / 2, 0], 0, 0)
  half _ v := if v 2 = -1 then ⟨0, 1, 0, 0⟩ else ⟨1 + v 2, -v 1, v 0, 0⟩

theorem down_to (v : V) (hv : v ⬝ᵥ v = 1) : orMat ((moored 2).half ![0, 0, 1] v) *ᵥ ![0, 0, 1] = v := by
  have h1 : v 0 ^ 2 + v 1 ^ 2 + v 2 ^ 2 = 1 := by
    rw [← hv]
    simp [dotProduct, Fin.sum_univ_three]
    ring
  simp only [moored]
  by_cases h : v 2 = -1
  · rw [if_pos h]
    have h0 : v 0 = 0 := by nlinarith [sq_nonneg (v 0), sq_nonneg (v 1)]
    have h2 : v 1 = 0 := by nlinarith [sq_nonneg (v 0), sq_nonneg (v 1)]
    have e : (⟨0, 1, 0, 0⟩ : Quat ℝ).normalized = ⟨0, 1, 0, 0⟩ := by simp [Quat.normalized, Quat.normSq, Quat.smul]
    unfold orMat
    rw [e]
    ext i
    fin_cases i <;> simp [Quat.toMat, mulVec, dotProduct, Fin.sum_univ_three, h, h0, h2]
    norm_num
  · rw [if_neg h]
    have hp : 0 < 1 + v 2 := by
      have : -1 ≤ v 2 := by nlinarith [sq_nonneg (v 0), sq_nonneg (v 1), sq_nonneg (v 2 + 1)]
      rcases this.lt_or_eq with g | g
      · linarith
      · exact absurd g.symm h
    have en : (⟨1 + v 2, -v 1, v 0, 0⟩ : Quat ℝ).normSq = 2 * (1 + v 2) := by
      simp only [Quat.normSq]
      linarith
    have hs : Real.sqrt (2 * (1 + v 2)) * Real.sqrt (2 * (1 + v 2)) = 2 * (1 + v 2) := Real.mul_self_sqrt (by linarith)
    have hs0 : 0 < Real.sqrt (2 * (1 + v 2)) := Real.sqrt_pos.2 (by linarith)
    unfold orMat Quat.normalized
    rw [en, if_pos (by linarith)]
    set k := Real.sqrt (2 * (1 + v 2)) with hk
    clear_value k
    have hk2 : k ^ 2 = 2 * (1 + v 2) := by rw [pow_two]; exact hs
    ext i
    fin_cases i <;> simp [Quat.toMat, Quat.smul, mulVec, dotProduct, Fin.sum_univ_three] <;> field_simp <;> rw [hk2] <;> nlinarith

/-- The rods of the ship. -/
example : (moored 2).Rigged := by
  refine ⟨fun i _ => by simp [moored], ?_, ?_⟩
  · intro b a ha _
    rcases b with _ | _ | b <;> simp [moored] at ha
    subst ha
    constructor <;> simp [moored, dotProduct, Fin.sum_univ_three]
  · intro b a ha _ v hv _
    exact down_to v hv

theorem call_ends {Q FL FP FR FB Wt : Type} [AddCommGroup Q] [Module ℝ Q] (S : System Q FL FP FR FB Wt) (ax : Time.Aux ℝ (State Q))
    (sc : Time.Scheme ℝ) {dtM0 : ℝ} (h0 : 0 < dtM0) (x : Asked) (hx : 0 < x.dt) (s : Time.Sim ℝ (State Q) (Mem Q FL FP FR FB)) :
    ∃ fuel e, call S ax sc dtM0 fuel s x = some e := by
  rw [call_callOn]
  unfold callOn
  obtain ⟨fuel, r, hs, h1, -⟩ := Time.C06_step_integrates_dt (ε := Empty) dtM0 h0 (Time.next (machine S))
    (fun h s => .ok (Time.stepOf (machine S) ax sc h s)) x.dt hx { s with m := initiate S x s.m }
  refine ⟨fuel, ?_⟩
  rw [if_neg (not_le.2 hx), h1]
  rcases r with r | r
  · exact r.elim
  · exact ⟨r, rfl⟩

/-- The ship drifts and turns. -/
noncomputable def sail : Asked := ⟨fun _ => ((![1, 2, 0], ![0, 0, 1]), (![1, 0, 0], ![0, 0, 1 / 10])), fun _ => 0, fun _ => 0, 1 / 2⟩

/-- Where all is in the beginning. -/
noncomputable def port : GearMem where
  t := 0
  line _ := ⟨⟨fun j => ![100 - 30 * j, 0, 15 * j - 50], 0, .PINNED, .PINNED, 0, 0⟩, ⟨fun _ => none, 0⟩⟩
  point _ := ⟨0, 0, 0, none⟩
  rod _ := ⟨0, Quat.one, 0, 0, ![0, 0, 1], 0, 0, 0, 0, ⟨2, 0, fun _ _ => none⟩⟩
  body _ := ⟨![1, 2, 0], euler2Quat ![0, 0, 1], 0, 0, orMat (euler2Quat ![0, 0, 1]), 0, ((![1, 2, 0], ![0, 0, 1]), 0, 0), none⟩
  ground := ⟨0, Quat.one, 0, 0, 1, 0, 0, none⟩

/-- The hypotheses of `C99_gear_partial` for the ship without rods: the call runs, and nothing is met on which the axes would have an influence. -/
example (θ : ℝ) (d : V) (relax : ℕ → ℕ → ℝ) (conv : State (Quat ℝ) × State (Quat ℝ) → State (Quat ℝ) × State (Quat ℝ) → Bool) (fr : Fresh)
    (sc : Time.Scheme ℝ) : (moored 0).Rigged ∧ (moored 2).Upright port ∧ Level (sail.body 0) ∧
      ∃ fuel w, [sail].foldlM (watchedCall (turnedBy θ d) (moored 0).code ((Each.code (moored 0).code.pose relax).aux conv fr) sc (1 / 1000) fuel)
        ⟨0, 0, fun _ => (fun _ j => (![100 - 30 * j, 0, 15 * j - 50], 0), 0, 0, 0), 0, 0, (port, False)⟩ = some w ∧ ¬ w.m.2 := by
  refine ⟨⟨fun i hi => absurd hi (Nat.not_lt_zero i), ?_, ?_⟩, ⟨⟨rfl, rfl, rfl, rfl, rfl⟩, fun i => ?_, fun b _ => ?_, fun i h => ?_⟩, ?_, ?_⟩
  · intro b a ha
    rcases b with _ | _ | b <;> simp [moored] at ha
  · intro b a ha
    rcases b with _ | _ | b <;> simp [moored] at ha
  · simp [port, Quat.normSq, Quat.one]
  · simp [port, Level]
  · simp only [moored] at h
    split_ifs at h
  · simp [sail, Level]
  · obtain ⟨fuel, e, h⟩ := call_ends (moored 0).code ((Each.code (moored 0).code.pose relax).aux conv fr) sc (dtM0 := 1 / 1000) (by norm_num) sail
      (by norm_num [sail]) ⟨0, 0, fun _ => (fun _ j => (![100 - 30 * j, 0, 15 * j - 50], 0), 0, 0, 0), 0, 0, port⟩
    obtain ⟨w, h1, h2⟩ := never_met (o := turnedBy θ d) (S := (moored 0).code) (fun e => ⟨fun i hi => absurd hi (Nat.not_lt_zero i), fun b _ hk => False.elim hk⟩)
      (fun m i hi => absurd hi (Nat.not_lt_zero i)) _ sc _ fuel [sail] _ e (by rw [List.foldlM_cons, h]; rfl)
    exact ⟨fuel, w, h1, h2⟩

end MD.Whole
