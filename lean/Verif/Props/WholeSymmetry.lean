import Verif.Lemmas.OwnAxes

/-!
# C117: a symmetric platform with its mooring stays symmetric; C118: the axes in which a round body is described do not matter
-/

set_option linter.unusedSimpArgs false
set_option linter.unusedSectionVars false
set_option linter.unusedVariables false
set_option linter.unnecessarySeqFocus false

namespace MD.Whole

open MD.Mooring Matrix MD.Mat MD.Rot MD.Frame

variable {θ : ℝ} {d : V} {h : ℕ → ℝ} {g : ℝ} {G : Gear} {β : Names}

/-- **C118**: a simulation of bodies, rods, points and lines, with all forces of the code, runs as it does with the horizontal axes turned by any
angle, another origin on the surface, and each body that is the same in both its horizontal directions described in axes of its own that are
turned by any angle, and the first directions of the rods, against which their attitudes count, turned by any angle: the points and rods on the
bodies, their centres of gravity and the headings are then given by other numbers, and all that happens is the same.  With every explicit scheme and the implicit Euler scheme, as long as no rod is almost but not quite vertical when forces are computed,
and no quaternion vanishes (this is recorded by the first simulation); what is asked for of bodies and rods that are moved
is level unless the axes of the world stay as they are. -/
theorem C118_axes_partial (hd : d 2 = 0) (ht : ∀ b, ∀ a ∈ G.rods b, a.1 < G.nr) (hL : ∀ i < G.nr, (G.rod i).N ≠ 0) (hT : G.Trimmed) (hB : ∀ b, h b = 0 ∨ Round (G.body b))
    (relax : ℕ → ℕ → ℝ) (conv conv' : State (Quat ℝ) × State (Quat ℝ) → State (Quat ℝ) × State (Quat ℝ) → Bool) (fr : Fresh)
    (sc : Time.Scheme ℝ) (hsc : Plain sc) (dtM0 : ℝ) (fuel : ℕ) (calls : List Asked)
    (hb : ∀ x ∈ calls, ∀ b < G.nb, G.bkind b = .COUPLED → θ = 0 ∨ Level (x.body b))
    (hr : ∀ x ∈ calls, ∀ i < G.nr, G.rkind i = .COUPLED → θ = 0 ∨ Level (x.rod i))
    (s : Time.Sim ℝ (State (Quat ℝ)) GearMem) (hs : G.Standing θ s.m) (w : Time.Sim ℝ (State (Quat ℝ)) (GearMem × Prop))
    (he : calls.foldlM (watchedCall (ownTurned θ d h g) G.code ((Each.code G.code.pose relax).aux conv fr) sc dtM0 fuel)
      ⟨s.t, s.tl, s.r, s.rd, s.n, (s.m, False)⟩ = some w) (hn : ¬ w.m.2) :
    ∃ e e', calls.foldlM (call G.code ((Each.code G.code.pose relax).aux conv fr) sc dtM0 fuel) s = some e ∧ e.m = w.m.1 ∧
      (calls.map (Asked.turned θ d h g)).foldlM (call (G.turned θ d h g).code ((Each.code G.code.pose relax).aux conv' fr) sc dtM0 fuel)
        (ownSim θ d h g s) = some e' ∧
      (∀ i, (e'.m.point i).r = (byAngle θ).Q *ᵥ (e.m.point i).r + d ∧ (e'.m.point i).rd = (byAngle θ).Q *ᵥ (e.m.point i).rd) ∧
      (∀ i, (e'.m.rod i).pos = (byAngle θ).Q *ᵥ (e.m.rod i).pos + d ∧ (e'.m.rod i).vel = (byAngle θ).Q *ᵥ (e.m.rod i).vel ∧
        (e'.m.rod i).w = (byAngle θ).Q *ᵥ (e.m.rod i).w ∧ (e'.m.rod i).q = (byAngle θ).Q *ᵥ (e.m.rod i).q) ∧
      (∀ b, (e'.m.body b).pos = (byAngle θ).Q *ᵥ (e.m.body b).pos + d ∧
        (e'.m.body b).orMat = (byAngle θ).Q * (e.m.body b).orMat * (byAngle (h b)).Qᵀ ∧
        (e'.m.body b).vel = (byAngle θ).Q *ᵥ (e.m.body b).vel ∧ (e'.m.body b).w = (byAngle θ).Q *ᵥ (e.m.body b).w ∧
        (e'.m.body b).F = (e.m.body b).F.map (Frame.load (byAngle θ))) ∧
      (∀ k j, (e'.m.line k).s.r j = (byAngle θ).Q *ᵥ (e.m.line k).s.r j + d ∧ (e'.m.line k).s.rd j = (byAngle θ).Q *ᵥ (e.m.line k).s.rd j) ∧
      (∀ k, fairTen ((G.turned θ d h g).lineNow k (e'.m.line k).s) = fairTen (G.lineNow k (e.m.line k).s)) := by
  have hc : List.Forall₂ (ViewAsked (ownTurned θ d h g) G.code (G.turned θ d h g).code) calls (calls.map (Asked.turned θ d h g)) := by
    rw [List.forall₂_map_right_iff, List.forall₂_same]
    exact fun x hx => own_asked θ d h g G x (hb x hx) (hr x hx)
  obtain ⟨e, e', h1, h2, h3, h4⟩ := C99_whole_partial (own_similar θ d h g G hd ht hL hT hB) G.code.pose relax conv conv' fr sc hsc dtM0 fuel calls _ hc s _
    (own_sim θ d h g G s hs) w he hn
  have e1 : (ownTurned θ d h g).tim * dtM0 = dtM0 := one_mul _
  rw [e1] at h3
  refine ⟨e, e', h1, h2, h3, fun i => ⟨?_, ?_⟩, fun i => ⟨?_, ?_, ?_, (h4.m.rod i).q⟩, fun b => ⟨?_, (h4.m.body b).orMat, ?_, ?_, (h4.m.body b).F⟩,
    fun k j => ⟨?_, ?_⟩, fun k => ?_⟩
  · exact (h4.m.point i).r.trans (view_place (byAngle θ) d (yaw θ) _)
  · exact (h4.m.point i).rd.trans (view_vel (byAngle θ) d (yaw θ) _)
  · exact (h4.m.rod i).pos.trans (view_place (byAngle θ) d (yaw θ) _)
  · exact (h4.m.rod i).vel.trans (view_vel (byAngle θ) d (yaw θ) _)
  · exact (h4.m.rod i).w.trans (view_spin (byAngle θ) d (yaw θ) _)
  · exact (h4.m.body b).pos.trans (view_place (byAngle θ) d (yaw θ) _)
  · exact (h4.m.body b).vel.trans (view_vel (byAngle θ) d (yaw θ) _)
  · exact (h4.m.body b).w.trans (view_spin (byAngle θ) d (yaw θ) _)
  · rw [(h4.m.line k).s]
    exact view_place (byAngle θ) d (yaw θ) _
  · rw [(h4.m.line k).s]
    exact view_vel (byAngle θ) d (yaw θ) _
  · rw [(h4.m.line k).s]
    have e5 := seen_line (byAngle θ) d (yaw θ) G k (e.m.line k).s
    have e6 := (C99_reported (G.lineNow k (e.m.line k).s) (seen_env (byAngle θ) d (yaw θ) G hd fun _ => (0, 0, 0, 0)) 0).2.1
    rw [← e5] at e6
    exact e6

/-- **C118**: bodies that are the same in both their horizontal directions may be described in axes of their own that are turned by any angles
about their verticals, and rods with first directions that are turned by any angle: every body, rod, point and node goes through the same places with the same velocities and forces, and
reported tensions are the same, whatever is asked for of bodies and rods that are moved and however the rods lie.  With every explicit scheme and the implicit Euler scheme, as long as
no quaternion vanishes (this is recorded). -/
theorem C118_own_partial (ht : ∀ b, ∀ a ∈ G.rods b, a.1 < G.nr) (hL : ∀ i < G.nr, (G.rod i).N ≠ 0) (hT : G.Trimmed) (hB : ∀ b, h b = 0 ∨ Round (G.body b))
    (relax : ℕ → ℕ → ℝ) (conv conv' : State (Quat ℝ) × State (Quat ℝ) → State (Quat ℝ) × State (Quat ℝ) → Bool) (fr : Fresh)
    (sc : Time.Scheme ℝ) (hsc : Plain sc) (dtM0 : ℝ) (fuel : ℕ) (calls : List Asked) (s : Time.Sim ℝ (State (Quat ℝ)) GearMem)
    (hg : IsGround s.m.ground) (hq : ∀ i, 0 < (s.m.rod i).quat.normSq) (w : Time.Sim ℝ (State (Quat ℝ)) (GearMem × Prop))
    (he : calls.foldlM (watchedCall (ownTurned 0 0 h g) G.code ((Each.code G.code.pose relax).aux conv fr) sc dtM0 fuel)
      ⟨s.t, s.tl, s.r, s.rd, s.n, (s.m, False)⟩ = some w) (hn : ¬ w.m.2) :
    (∀ m, FitMem (ownTurned 0 0 h g) G.code m) ∧
    ∃ e e', calls.foldlM (call G.code ((Each.code G.code.pose relax).aux conv fr) sc dtM0 fuel) s = some e ∧ e.m = w.m.1 ∧
      (calls.map (Asked.turned 0 0 h g)).foldlM (call (G.turned 0 0 h g).code ((Each.code G.code.pose relax).aux conv' fr) sc dtM0 fuel)
        (ownSim 0 0 h g s) = some e' ∧
      (∀ i, (e'.m.point i).r = (e.m.point i).r ∧ (e'.m.point i).rd = (e.m.point i).rd) ∧
      (∀ i, (e'.m.rod i).pos = (e.m.rod i).pos ∧ (e'.m.rod i).vel = (e.m.rod i).vel ∧ (e'.m.rod i).w = (e.m.rod i).w ∧ (e'.m.rod i).q = (e.m.rod i).q) ∧
      (∀ b, (e'.m.body b).pos = (e.m.body b).pos ∧ (e'.m.body b).orMat * (byAngle (h b)).Q = (e.m.body b).orMat ∧
        (e'.m.body b).vel = (e.m.body b).vel ∧ (e'.m.body b).w = (e.m.body b).w ∧ (e'.m.body b).F = (e.m.body b).F) ∧
      (∀ k j, (e'.m.line k).s.r j = (e.m.line k).s.r j ∧ (e'.m.line k).s.rd j = (e.m.line k).s.rd j) ∧
      (∀ k, fairTen ((G.turned 0 0 h g).lineNow k (e'.m.line k).s) = fairTen (G.lineNow k (e.m.line k).s)) := by
  refine ⟨fun m i _ => .inl yaw_zero, ?_⟩
  obtain ⟨e, e', h1, h2, h3, h4, h5, h6, h7, h8⟩ := C118_axes_partial (θ := 0) (d := 0) (h := h) (g := g) rfl ht hL hT hB relax conv conv' fr sc hsc dtM0
    fuel calls (fun _ _ _ _ _ => .inl rfl) (fun _ _ _ _ _ => .inl rfl) s ⟨hg, hq, fun _ _ => .inl rfl, fun _ _ => .inl rfl⟩ w he hn
  simp only [byAngle_zero, one_mulVec, add_zero, one_mul] at h4 h5 h6 h7
  refine ⟨e, e', h1, h2, h3, h4, h5, fun b => ?_, h7, h8⟩
  obtain ⟨p1, p2, p3, p4, p5⟩ := h6 b
  refine ⟨p1, ?_, p3, p4, ?_⟩
  · rw [p2, mul_assoc, (byAngle (h b)).orth, mul_one]
  · rw [p5]
    cases (e.m.body b).F with
    | none => rfl
    | some F => simp [Frame.load, Frame.mass6, byAngle_zero, fromBlocks_one]

theorem plain_not {sc : Time.Scheme ℝ} (h : Plain sc) : Relate.NotAnderson sc := by
  cases sc <;> trivial

/-- **C117**: a system of bodies, rods, points and lines that looks the same after a turn about a vertical axis, each object taking the place of
its counterpart, stays so: if the start is symmetric, and what is asked for in the calls, then after any number of calls, with every explicit scheme and the
implicit Euler scheme, counterparts are where the turn takes the others, with velocities, attitudes and forces that are turned, and lines have the
same fairlead tensions.  As long as no rod is almost but not quite vertical when forces are computed, and no quaternion vanishes (this is
recorded).  Bodies whose own axes are turned against those of their counterpart are the same in both horizontal directions; the first directions
of counterparts among the rods may be turned against each other by a common angle. -/
theorem C117_symmetric_partial (hS : G.Symmetric θ d h g β) (hd : d 2 = 0) (hG : G.Rightly) (hL : ∀ i < G.nr, (G.rod i).N ≠ 0) (hT : G.Trimmed) (hB : ∀ b, h b = 0 ∨ Round (G.body b))
    (relax : ℕ → ℕ → ℝ) (conv : State (Quat ℝ) × State (Quat ℝ) → State (Quat ℝ) × State (Quat ℝ) → Bool) {fr : Fresh}
    (hf : SameFresh β G.code fr fr) (sc : Time.Scheme ℝ) (hsc : Plain sc) (dtM0 : ℝ) (fuel : ℕ) (calls : List Asked)
    (hc : ∀ x ∈ calls, G.SymAsked θ d h g β x) (s : Time.Sim ℝ (State (Quat ℝ)) GearMem) (hs : G.SymSim θ d h g β s) (hm : Connected G.code s.m)
    (w : Time.Sim ℝ (State (Quat ℝ)) (GearMem × Prop))
    (he : calls.foldlM (watchedCall (ownTurned θ d h g) G.code ((Each.code G.code.pose relax).aux conv fr) sc dtM0 fuel)
      ⟨s.t, s.tl, s.r, s.rd, s.n, (s.m, False)⟩ = some w) (hn : ¬ w.m.2) :
    ∃ e, calls.foldlM (call G.code ((Each.code G.code.pose relax).aux conv fr) sc dtM0 fuel) s = some e ∧ e.m = w.m.1 ∧ G.SymSim θ d h g β e ∧
      (∀ i < G.np, (e.m.point (β.point i)).r = (byAngle θ).Q *ᵥ (e.m.point i).r + d ∧
        (e.m.point (β.point i)).rd = (byAngle θ).Q *ᵥ (e.m.point i).rd ∧
        (e.m.point (β.point i)).F.map (fun p => (p.doRHS G.env.rho_w G.env.g).1) =
          (e.m.point i).F.map fun p => (byAngle θ).Q *ᵥ (p.doRHS G.env.rho_w G.env.g).1) ∧
      (∀ i < G.nr, (e.m.rod (β.rod i)).pos = (byAngle θ).Q *ᵥ (e.m.rod i).pos + d ∧ (e.m.rod (β.rod i)).vel = (byAngle θ).Q *ᵥ (e.m.rod i).vel ∧
        (e.m.rod (β.rod i)).w = (byAngle θ).Q *ᵥ (e.m.rod i).w ∧ (e.m.rod (β.rod i)).q = (byAngle θ).Q *ᵥ (e.m.rod i).q) ∧
      (∀ b < G.nb, (e.m.body (β.body b)).pos = (byAngle θ).Q *ᵥ (e.m.body b).pos + d ∧
        (e.m.body (β.body b)).orMat = (byAngle θ).Q * (e.m.body b).orMat * (byAngle (h b)).Qᵀ ∧
        (e.m.body (β.body b)).vel = (byAngle θ).Q *ᵥ (e.m.body b).vel ∧ (e.m.body (β.body b)).w = (byAngle θ).Q *ᵥ (e.m.body b).w ∧
        (e.m.body (β.body b)).F = (e.m.body b).F.map (Frame.load (byAngle θ))) ∧
      (∀ k < G.nl, ∀ j, (e.m.line (β.line k)).s.r j = (byAngle θ).Q *ᵥ (e.m.line k).s.r j + d ∧
        (e.m.line (β.line k)).s.rd j = (byAngle θ).Q *ᵥ (e.m.line k).s.rd j) ∧
      (∀ k < G.nl, fairTen (G.lineNow (β.line k) (e.m.line (β.line k)).s) = fairTen (G.lineNow k (e.m.line k).s)) := by
  obtain ⟨s', hv, hw⟩ := hs
  have hc1 : List.Forall₂ (ViewAsked (ownTurned θ d h g) G.code (G.turned θ d h g).code) calls (calls.map (Asked.turned θ d h g)) := by
    rw [List.forall₂_map_right_iff, List.forall₂_same]
    exact fun x hx => own_asked θ d h g G x (fun b hb hk => .inr ((hc x hx).level b hb hk)) fun i hi hk => .inr ((hc x hx).levelRod i hi hk)
  have hc2 : List.Forall₂ (SameAsked β (G.turned θ d h g).code) calls (calls.map (Asked.turned θ d h g)) := by
    rw [List.forall₂_map_right_iff, List.forall₂_same]
    exact fun x hx => ⟨rfl, fun b hb => ((hc x hx).body b hb).symm, fun i hi => ((hc x hx).rod i hi).symm, fun i hi => ((hc x hx).point i hi).symm⟩
  obtain ⟨e, e', h1, h2, h3, h4⟩ := C99_whole_partial (own_similar θ d h g G hd hG.sound.rodsNum hL hT hB) G.code.pose relax conv conv fr sc hsc dtM0 fuel
    calls _ hc1 s _ hv w he hn
  have e1 : (ownTurned θ d h g).tim * dtM0 = dtM0 := one_mul _
  rw [e1] at h3
  obtain ⟨e'', h5, h6⟩ := C106_gear_partial hS hG (hG.turned θ d h g G) (Each.code G.code.pose relax) conv conv
    ⟨hf.line, hf.point, hf.rod, hf.body⟩ sc (plain_not hsc) dtM0 fuel calls _ hc2 s s' e hw hm h1
  have e2 : e'' = e' := Option.some.inj (h5.symm.trans h3)
  subst e2
  refine ⟨e, h1, h2, ⟨e'', h4, h6⟩, fun i hi => ⟨?_, ?_, ?_⟩, fun i hi => ⟨?_, ?_, ?_, ?_⟩, fun b hb => ⟨?_, ?_, ?_, ?_, ?_⟩,
    fun k hk j => ⟨?_, ?_⟩, fun k hk => ?_⟩
  · rw [← h6.m.point i hi]
    exact (h4.m.point i).r.trans (view_place (byAngle θ) d (yaw θ) _)
  · rw [← h6.m.point i hi]
    exact (h4.m.point i).rd.trans (view_vel (byAngle θ) d (yaw θ) _)
  · rw [← h6.m.point i hi, (h4.m.point i).F]
    show ((e.m.point i).F.map (point (byAngle θ) d)).map _ = _
    rw [Option.map_map]
    congr 1
    funext p
    show ((point (byAngle θ) d p).doRHS G.env.rho_w G.env.g).1 = _
    rw [C99_point]
  · rw [← h6.m.rod i hi]
    exact (h4.m.rod i).pos.trans (view_place (byAngle θ) d (yaw θ) _)
  · rw [← h6.m.rod i hi]
    exact (h4.m.rod i).vel.trans (view_vel (byAngle θ) d (yaw θ) _)
  · rw [← h6.m.rod i hi]
    exact (h4.m.rod i).w.trans (view_spin (byAngle θ) d (yaw θ) _)
  · rw [← h6.m.rod i hi]
    exact (h4.m.rod i).q
  · rw [← h6.m.body b hb]
    exact (h4.m.body b).pos.trans (view_place (byAngle θ) d (yaw θ) _)
  · rw [← h6.m.body b hb]
    exact (h4.m.body b).orMat
  · rw [← h6.m.body b hb]
    exact (h4.m.body b).vel.trans (view_vel (byAngle θ) d (yaw θ) _)
  · rw [← h6.m.body b hb]
    exact (h4.m.body b).w.trans (view_spin (byAngle θ) d (yaw θ) _)
  · rw [← h6.m.body b hb]
    exact (h4.m.body b).F
  · rw [← h6.m.line k hk, (h4.m.line k).s]
    exact view_place (byAngle θ) d (yaw θ) _
  · rw [← h6.m.line k hk, (h4.m.line k).s]
    exact view_vel (byAngle θ) d (yaw θ) _
  · have e3 : G.lineNow (β.line k) (e.m.line (β.line k)).s = (G.turned θ d h g).lineNow k (e''.m.line k).s := by
      rw [h6.m.line k hk]
      unfold Gear.lineNow
      rw [hS.line k hk]
    rw [e3, (h4.m.line k).s]
    have e5 := seen_line (byAngle θ) d (yaw θ) G k (e.m.line k).s
    have e6 := (C99_reported (G.lineNow k (e.m.line k).s) (seen_env (byAngle θ) d (yaw θ) G hd fun _ => (0, 0, 0, 0)) 0).2.1
    rw [← e5] at e6
    exact e6

theorem on_axis (hθ : Real.cos θ ≠ 1) {v : V} (hv : v = (byAngle θ).Q *ᵥ v) : v 0 = 0 ∧ v 1 = 0 := by
  have h0 := congrFun hv 0
  have h1 := congrFun hv 1
  simp [byAngle, mulVec, dotProduct, Fin.sum_univ_three] at h0 h1
  have hc := Real.cos_sq_add_sin_sq θ
  have hk : 1 - Real.cos θ ≠ 0 := fun e => hθ (by linarith)
  constructor
  · have : (1 - Real.cos θ) * v 0 = 0 := by grobner
    exact (mul_eq_zero.1 this).resolve_left hk
  · have : (1 - Real.cos θ) * v 1 = 0 := by grobner
    exact (mul_eq_zero.1 this).resolve_left hk

/-- **C117**: a body that is its own counterpart stays on the axis and upright, moves only along the axis and turns only about it, and the force
and the moment on it are vertical. -/
theorem C117_axis_partial (hS : G.Symmetric θ d h g β) (hd : d 2 = 0) (hG : G.Rightly) (hL : ∀ i < G.nr, (G.rod i).N ≠ 0) (hT : G.Trimmed) (hB : ∀ b, h b = 0 ∨ Round (G.body b))
    (relax : ℕ → ℕ → ℝ) (conv : State (Quat ℝ) × State (Quat ℝ) → State (Quat ℝ) × State (Quat ℝ) → Bool) {fr : Fresh}
    (hf : SameFresh β G.code fr fr) (sc : Time.Scheme ℝ) (hsc : Plain sc) (dtM0 : ℝ) (fuel : ℕ) (calls : List Asked)
    (hc : ∀ x ∈ calls, G.SymAsked θ d h g β x) (s : Time.Sim ℝ (State (Quat ℝ)) GearMem) (hs : G.SymSim θ d h g β s) (hm : Connected G.code s.m)
    (w : Time.Sim ℝ (State (Quat ℝ)) (GearMem × Prop))
    (he : calls.foldlM (watchedCall (ownTurned θ d h g) G.code ((Each.code G.code.pose relax).aux conv fr) sc dtM0 fuel)
      ⟨s.t, s.tl, s.r, s.rd, s.n, (s.m, False)⟩ = some w) (hn : ¬ w.m.2)
    (hθ : Real.cos θ ≠ 1) {c : V} (hcd : (byAngle θ).Q *ᵥ c + d = c) {b : ℕ} (hb : b < G.nb) (hβ : β.body b = b) :
    (w.m.1.body b).pos 0 = c 0 ∧ (w.m.1.body b).pos 1 = c 1 ∧ (w.m.1.body b).orMat 0 2 = 0 ∧ (w.m.1.body b).orMat 1 2 = 0 ∧
      (w.m.1.body b).vel 0 = 0 ∧ (w.m.1.body b).vel 1 = 0 ∧ (w.m.1.body b).w 0 = 0 ∧ (w.m.1.body b).w 1 = 0 ∧
      ∀ F ∈ (w.m.1.body b).F, F.1 0 = 0 ∧ F.1 1 = 0 ∧ F.2.1 0 = 0 ∧ F.2.1 1 = 0 := by
  obtain ⟨e, -, h2, -, -, -, h3, -⟩ := C117_symmetric_partial hS hd hG hL hT hB relax conv hf sc hsc dtM0 fuel calls hc s hs hm w he hn
  obtain ⟨p1, p2, p3, p4, p5⟩ := h3 b hb
  rw [hβ] at p1 p2 p3 p4 p5
  rw [← h2]
  generalize e.m.body b = B at *
  obtain ⟨a1, a2⟩ := on_axis hθ (v := B.pos - c) (by
    nth_rw 1 [p1, ← hcd]
    rw [mulVec_sub]
    abel)
  obtain ⟨a3, a4⟩ := on_axis hθ (v := B.orMat *ᵥ ![0, 0, 1]) (by
    nth_rw 1 [p2]
    rw [← mulVec_mulVec, ← mulVec_mulVec, ← byAngle_neg, (byAngle (-h b)).up])
  obtain ⟨a5, a6⟩ := on_axis hθ p3
  obtain ⟨a7, a8⟩ := on_axis hθ p4
  have col : ∀ i : Fin 3, (B.orMat *ᵥ ![0, 0, 1]) i = B.orMat i 2 := by
    intro i
    simp [mulVec, dotProduct, Fin.sum_univ_three]
  rw [col] at a3 a4
  refine ⟨?_, ?_, a3, a4, a5, a6, a7, a8, ?_⟩
  · exact sub_eq_zero.1 a1
  · exact sub_eq_zero.1 a2
  · intro F hF
    rw [Option.mem_def] at hF
    rw [hF] at p5
    have p6 : F = Frame.load (byAngle θ) F := Option.some.inj p5
    obtain ⟨b1, b2⟩ := on_axis hθ (congrArg Prod.fst p6)
    obtain ⟨b3, b4⟩ := on_axis hθ (congrArg (fun x => x.2.1) p6)
    exact ⟨b1, b2, b3, b4⟩

/-! ## Cases -/

theorem exists_normal {u : V} (hu : u ⬝ᵥ u = 1) : ∃ n : V, n ⬝ᵥ n = 1 ∧ n ⬝ᵥ u = 0 := by
  by_cases h : u 0 = 0 ∧ u 1 = 0
  · exact ⟨![1, 0, 0], by simp [dotProduct, Fin.sum_univ_three], by simp [dotProduct, Fin.sum_univ_three, h.1]⟩
  · have hp : 0 < u 0 * u 0 + u 1 * u 1 := by
      by_contra hc
      refine h ⟨?_, ?_⟩ <;> nlinarith [mul_self_nonneg (u 0), mul_self_nonneg (u 1)]
    have hs : Real.sqrt (u 0 * u 0 + u 1 * u 1) * Real.sqrt (u 0 * u 0 + u 1 * u 1) = u 0 * u 0 + u 1 * u 1 := Real.mul_self_sqrt hp.le
    have h0 : Real.sqrt (u 0 * u 0 + u 1 * u 1) ≠ 0 := (Real.sqrt_pos.2 hp).ne'
    generalize Real.sqrt (u 0 * u 0 + u 1 * u 1) = c at *
    refine ⟨![-(u 1) / c, u 0 / c, 0], ?_, ?_⟩
    · simp [dotProduct, Fin.sum_univ_three]
      field_simp
      linarith
    · simp [dotProduct, Fin.sum_univ_three]
      field_simp
      ring

theorem half_about {n u : V} (hn : n ⬝ᵥ n = 1) (hu : n ⬝ᵥ u = 0) : (Quat.mk 0 (n 0) (n 1) (n 2)).toMat *ᵥ u = -u := by
  simp only [dotProduct, Fin.sum_univ_three] at hn hu
  ext i
  fin_cases i <;> simp [Quat.toMat, mulVec, dotProduct, Fin.sum_univ_three] <;> grobner

/-- Any direction can be turned into any other. -/
theorem exists_turn {u v : V} (hu : u ⬝ᵥ u = 1) (hv : v ⬝ᵥ v = 1) : ∃ q : Quat ℝ, orMat q *ᵥ u = v := by
  cases h : Rods.fromTwoVectors u v with
  | some q => exact ⟨q, Rods.rotates hu hv h⟩
  | none =>
    obtain ⟨n, h1, h2⟩ := exists_normal hu
    have hu' : (-u) ⬝ᵥ (-u) = 1 := by rw [neg_dotProduct_neg, hu]
    have h3 : (Quat.mk 0 (n 0) (n 1) (n 2)).normSq = 1 := by
      simp only [dotProduct, Fin.sum_univ_three] at h1
      unfold Quat.normSq
      linarith
    unfold Rods.fromTwoVectors at h
    rw [Rods.normalized_unit hu, Rods.normalized_unit hv] at h
    simp only at h
    split_ifs at h with hc
    cases h4 : Rods.fromTwoVectors (-u) v with
    | none =>
      exfalso
      unfold Rods.fromTwoVectors at h4
      rw [Rods.normalized_unit hu', Rods.normalized_unit hv] at h4
      simp only at h4
      split_ifs at h4 with hc'
      rw [dotProduct_neg] at hc'
      norm_num at hc hc'
      linarith
    | some q =>
      have h5 := Rods.rotates hu' hv h4
      have h6 : 0 < q.normSq := by
        unfold Rods.fromTwoVectors at h4
        rw [Rods.normalized_unit hu', Rods.normalized_unit hv] at h4
        simp only at h4
        split_ifs at h4 with hc'
        rw [← Option.some.inj h4]
        have h7 : 0 < Real.sqrt ((1 + v ⬝ᵥ -u) * 2) := by
          apply Real.sqrt_pos.2
          rw [dotProduct_neg]
          norm_num at hc
          nlinarith
        generalize Real.sqrt ((1 + v ⬝ᵥ -u) * 2) = c at *
        unfold Quat.normSq
        dsimp only
        have : 0 < c / 2 * (c / 2) := by positivity
        nlinarith [mul_self_nonneg ((-u ⨯₃ v) 0 * (1 / c)), mul_self_nonneg ((-u ⨯₃ v) 1 * (1 / c)), mul_self_nonneg ((-u ⨯₃ v) 2 * (1 / c))]
      refine ⟨q.mul ⟨0, n 0, n 1, n 2⟩, ?_⟩
      rw [orMat_mul_right h3 h6, ← mulVec_mulVec, half_about h1 h2, h5]

open Classical in
/-- A half turn that does what is asked for. -/
noncomputable def aHalf (u v : V) : Quat ℝ := if h : ∃ q, orMat q *ᵥ u = v then h.choose else Quat.one

theorem aHalf_turns {u v : V} (hu : u ⬝ᵥ u = 1) (hv : v ⬝ᵥ v = 1) : orMat (aHalf u v) *ᵥ u = v := by
  unfold aHalf
  rw [dif_pos (exists_turn hu hv)]
  exact (exists_turn hu hv).choose_spec

theorem sym_start {s : Time.Sim ℝ (State (Quat ℝ)) GearMem} (hv : G.Upright s.m) (hw : SameSim β (G.turned θ d h g).code s (ownSim θ d h g s)) : G.SymSim θ d h g β s :=
  ⟨_, own_sim θ d h g G s (hv.standing θ), hw⟩

/-- A platform that is moved, with two mooring lines of three segments to anchors on either side, on a bottom that falls off to both sides, in
water that flows apart. -/
noncomputable def pair : Gear where
  nb := 1
  nr := 0
  np := 4
  nl := 2
  bkind _ := .COUPLED
  rkind _ := .FREE
  pkind _ := .FIXED
  pts
    | none => [(0, ![100, 0, -50]), (1, ![-100, 0, -50])]
    | some 0 => [(2, ![5, 0, -2]), (3, ![-5, 0, -2])]
    | some _ => []
  rods _ := []
  ends
    | 0 => [(0, .BOTTOM)]
    | 1 => [(1, .BOTTOM)]
    | 2 => [(0, .TOP)]
    | 3 => [(1, .TOP)]
    | _ => []
  endsA _ := []
  endsB _ := []
  q0 _ := ![0, 0, 1]
  line _ := ⟨3, 1 / 10, Real.pi / 400, 5000, 10 ^ 9, 0, 0, 1, 0, 1, 0, none, none, none, false, fun _ => 37, fun _ => 37 * (Real.pi / 400), 0, 0,
    .PINNED, .PINNED, 0, 0, 0, false⟩
  point _ := ⟨0, 0, 0, 0, 0, 0, 0, 0, []⟩
  rod _ := ⟨2, 1 / 2, 5000, 1, 0, 1, 1, 1, 4, 0, 0, 0, 0, [], []⟩
  body _ := ⟨10 ^ 6, 1000, ![0, 0, -1], ![10 ^ 7, 10 ^ 7, 10 ^ 6], ![10, 10, 20], 0, 1, 0, 0, 1, 0, 0, 0⟩
  env := ⟨1025, 98 / 10, 10 ^ 5, 10 ^ 4, 0, 0, 0, fun x _ => -50 - x ^ 2 / 10 ^ 6, fun _ => 0, fun _ => 0, fun _ => 0, fun _ => 0⟩
  kin _ x := (0, ![x 0 / 100, x 1 / 100, 0], 0, 0)
  half := aHalf

/-- The two sides change places. -/
def otherSide : Names where
  body := id
  rod := id
  point
    | 0 => 1
    | 1 => 0
    | 2 => 3
    | 3 => 2
    | i => i
  line
    | 0 => 1
    | 1 => 0
    | k => k

/-- Where all is in the beginning. -/
noncomputable def becalmed : GearMem where
  t := 0
  line k := ⟨⟨fun j => ![(if k = 0 then 1 else -1) * (100 - 95 / 3 * j), 0, 16 * j - 50], 0, .PINNED, .PINNED, 0, 0⟩, ⟨fun _ => none, 0⟩⟩
  point i := ⟨![(if i % 2 = 0 then 1 else -1) * (if i < 2 then 100 else 5), 0, if i < 2 then -50 else -2], 0, 0, none⟩
  rod _ := ⟨0, Quat.one, 0, 0, ![0, 0, 1], 0, 0, 0, 0, ⟨2, 0, fun _ _ => none⟩⟩
  body _ := ⟨0, Quat.one, 0, 0, 1, 0, 0, none⟩
  ground := ⟨0, Quat.one, 0, 0, 1, 0, 0, none⟩

/-- The first moment. -/
noncomputable def outset : Time.Sim ℝ (State (Quat ℝ)) GearMem :=
  ⟨0, 0, fun _ => (fun k j => (![(if k = 0 then 1 else -1) * (100 - 95 / 3 * (j + 1)), 0, 16 * (j + 1) - 50], 0), 0, 0, 0), fun _ => 0, 0, becalmed⟩

/-- The platform is lifted and turned. -/
noncomputable def lift : Asked := ⟨fun _ => ((![0, 0, 1], ![0, 0, 1]), (![0, 0, 1 / 2], ![0, 0, 1 / 10])), fun _ => 0, fun _ => 0, 1 / 2⟩

theorem half_turn (v : V) : (byAngle Real.pi).Q *ᵥ v = ![-v 0, -v 1, v 2] := by
  ext i
  fin_cases i <;> simp [byAngle, mulVec, dotProduct, Fin.sum_univ_three]

theorem pair_pts (b : Option ℕ) (a : ℕ × V) (ha : a ∈ pair.pts b) : (b = none ∧ a = (0, ![100, 0, -50])) ∨ (b = none ∧ a = (1, ![-100, 0, -50])) ∨
    (b = some 0 ∧ a = (2, ![5, 0, -2])) ∨ (b = some 0 ∧ a = (3, ![-5, 0, -2])) := by
  rcases b with _ | _ | b <;> simp only [pair, List.mem_cons, List.not_mem_nil, or_false] at ha
  · rcases ha with rfl | rfl
    · exact .inl ⟨rfl, rfl⟩
    · exact .inr (.inl ⟨rfl, rfl⟩)
  · rcases ha with rfl | rfl
    · exact .inr (.inr (.inl ⟨rfl, rfl⟩))
    · exact .inr (.inr (.inr ⟨rfl, rfl⟩))

theorem pair_ends (u : Holder) (a : ℕ × EndPt) (ha : a ∈ u.list pair.code) : (u = .point 0 ∧ a = (0, .BOTTOM)) ∨ (u = .point 1 ∧ a = (1, .BOTTOM)) ∨
    (u = .point 2 ∧ a = (0, .TOP)) ∨ (u = .point 3 ∧ a = (1, .TOP)) := by
  rcases u with (_ | _ | _ | _ | i) | i | i
  · exact .inl ⟨rfl, List.mem_singleton.1 ha⟩
  · exact .inr (.inl ⟨rfl, List.mem_singleton.1 ha⟩)
  · exact .inr (.inr (.inl ⟨rfl, List.mem_singleton.1 ha⟩))
  · exact .inr (.inr (.inr ⟨rfl, List.mem_singleton.1 ha⟩))
  · cases ha
  · cases ha
  · cases ha

theorem pair_rightly : pair.Rightly := by
  have hno : ∀ b (a : ℕ × V × V), a ∉ pair.rods b := fun b a => List.not_mem_nil
  refine ⟨⟨?_, ?_, ?_, ?_, ?_, ?_, ?_, ?_, ?_⟩, ?_, ?_, ?_⟩
  · intro u u' a ha ha'
    rcases pair_ends u a ha with ⟨rfl, rfl⟩ | ⟨rfl, rfl⟩ | ⟨rfl, rfl⟩ | ⟨rfl, rfl⟩ <;>
      rcases pair_ends u' _ ha' with ⟨rfl, e⟩ | ⟨rfl, e⟩ | ⟨rfl, e⟩ | ⟨rfl, e⟩ <;> first | rfl | simp at e
  · intro k
    show 0 < 3
    norm_num
  · intro b b' a ha a' ha' e
    rcases pair_pts b a ha with ⟨rfl, rfl⟩ | ⟨rfl, rfl⟩ | ⟨rfl, rfl⟩ | ⟨rfl, rfl⟩ <;>
      rcases pair_pts b' a' ha' with ⟨rfl, rfl⟩ | ⟨rfl, rfl⟩ | ⟨rfl, rfl⟩ | ⟨rfl, rfl⟩ <;> first | exact ⟨rfl, rfl⟩ | simp at e
  · intro b b' a ha
    exact absurd ha (hno b a)
  · intro b a ha
    rfl
  · intro b a ha
    exact absurd ha (hno b a)
  · intro b a ha
    exact absurd ha (hno b a)
  · intro b a ha
    show a.1 < 4
    rcases pair_pts b a ha with ⟨rfl, rfl⟩ | ⟨rfl, rfl⟩ | ⟨rfl, rfl⟩ | ⟨rfl, rfl⟩ <;> norm_num
  · rintro b (⟨a, ha⟩ | ⟨a, ha⟩)
    · show b < 1
      rcases pair_pts (some b) a ha with ⟨e, -⟩ | ⟨e, -⟩ | ⟨e, -⟩ | ⟨e, -⟩ <;> cases e <;> norm_num
    · exact absurd ha (hno (some b) a)
  · intro i _
    show 0 < 2
    norm_num
  · intro k hk p
    have hk' : k = 0 ∨ k = 1 := by
      have : k < 2 := hk
      omega
    rcases hk' with rfl | rfl <;> cases p
    · exact .inl ⟨2, by show 2 < 4; norm_num, List.mem_singleton.2 rfl⟩
    · exact .inl ⟨0, by show 0 < 4; norm_num, List.mem_singleton.2 rfl⟩
    · exact .inl ⟨3, by show 3 < 4; norm_num, List.mem_singleton.2 rfl⟩
    · exact .inl ⟨1, by show 1 < 4; norm_num, List.mem_singleton.2 rfl⟩
  · intro u a ha
    show a.1 < 2
    rcases pair_ends u a ha with ⟨rfl, rfl⟩ | ⟨rfl, rfl⟩ | ⟨rfl, rfl⟩ | ⟨rfl, rfl⟩ <;> norm_num

theorem pair_ground : (pair.turned Real.pi 0 (fun _ => Real.pi) Real.pi).pts none = [(0, ![-100, 0, -50]), (1, ![100, 0, -50])] := by
  show (pair.pts none).map (fun a => (a.1, (byAngle Real.pi).Q *ᵥ a.2 + 0)) = _
  simp [pair, half_turn]

theorem pair_deck : (pair.turned Real.pi 0 (fun _ => Real.pi) Real.pi).pts (some 0) = [(2, ![-5, 0, -2]), (3, ![5, 0, -2])] := by
  show (pair.pts (some 0)).map (fun a => (a.1, (byAngle Real.pi).Q *ᵥ a.2)) = _
  simp [pair, half_turn]

theorem pair_symmetric : pair.Symmetric Real.pi 0 (fun _ => Real.pi) Real.pi otherSide where
  nb b hb := hb
  nr i hi := hi
  np i hi := by
    have : i < 4 := hi
    show otherSide.point i < 4
    interval_cases i <;> decide
  nl k hk := by
    have : k < 2 := hk
    show otherSide.line k < 2
    interval_cases k <;> decide
  bkind _ _ := rfl
  rkind _ _ := rfl
  pkind _ _ := rfl
  pts b hb := by
    have : b = 0 := Nat.lt_one_iff.1 hb
    subst this
    rw [pair_deck]
    exact List.Perm.swap _ _ _
  rods b hb := .refl _
  groundPts a ha := by
    rw [pair_ground] at ha
    simp only [List.mem_cons, List.not_mem_nil, or_false] at ha
    rcases ha with rfl | rfl
    · exact List.mem_cons_of_mem _ (List.mem_singleton.2 rfl)
    · exact List.mem_cons_self
  groundRods a ha := absurd ha List.not_mem_nil
  ptsBack i hi b rel hr := by
    have hi' : i < 4 := hi
    have h1 := pair_pts b _ hr
    interval_cases i
    · have e : otherSide.point 0 = 1 := by decide
      rw [e] at h1
      simp at h1
      obtain ⟨rfl, rfl⟩ := h1
      exact ⟨none, rfl, by rw [pair_ground]; simp⟩
    · have e : otherSide.point 1 = 0 := by decide
      rw [e] at h1
      simp at h1
      obtain ⟨rfl, rfl⟩ := h1
      exact ⟨none, rfl, by rw [pair_ground]; simp⟩
    · have e : otherSide.point 2 = 3 := by decide
      rw [e] at h1
      simp at h1
      obtain ⟨rfl, rfl⟩ := h1
      exact ⟨some 0, rfl, by rw [pair_deck]; simp⟩
    · have e : otherSide.point 3 = 2 := by decide
      rw [e] at h1
      simp at h1
      obtain ⟨rfl, rfl⟩ := h1
      exact ⟨some 0, rfl, by rw [pair_deck]; simp⟩
  rodsBack i hi b rel hr := absurd hr List.not_mem_nil
  ends i hi := by
    have hi' : i < 4 := hi
    interval_cases i <;> exact .refl _
  endsA i hi := .refl _
  endsB i hi := .refl _
  held := pair_rightly.held
  q0 _ _ := (byAngle Real.pi).up
  line _ _ := rfl
  point i _ := by
    show ({ pair.point i with pointF := _ } : Bodies.Point) = pair.point i
    simp [pair]
  rod _ _ := rfl
  body b _ := by
    show ({ pair.body b with body_rCG := (byAngle Real.pi).Q *ᵥ (pair.body b).body_rCG } : Bodies.Body) = pair.body b
    simp [pair, half_turn]
  env := by
    show ({ pair.env with waterDepth := _ } : Env) = pair.env
    have e : ∀ x : V, back (byAngle Real.pi) 0 x = ![-x 0, -x 1, x 2] := by
      intro x
      unfold back
      rw [sub_zero, ← byAngle_neg]
      ext i
      fin_cases i <;> simp [byAngle, mulVec, dotProduct, Fin.sum_univ_three]
    simp [e, pair]
  kin := by
    funext t x
    show waterSeen (byAngle Real.pi) (pair.kin t (back (byAngle Real.pi) 0 x)) = pair.kin t x
    have e : back (byAngle Real.pi) 0 x = ![-x 0, -x 1, x 2] := by
      unfold back
      rw [sub_zero, ← byAngle_neg]
      ext i
      fin_cases i <;> simp [byAngle, mulVec, dotProduct, Fin.sum_univ_three]
    rw [e]
    simp [waterSeen, pair, half_turn]
    ring_nf
    simp
  half := rfl

theorem becalmed_upright : pair.Upright becalmed where
  ground := ⟨rfl, rfl, rfl, rfl, rfl⟩
  rods i := by simp [becalmed, Quat.normSq, Quat.one]
  body b _ := by simp [becalmed, Level]
  rod i hk := by cases hk

theorem outset_sym : pair.SymSim Real.pi 0 (fun _ => Real.pi) Real.pi otherSide outset := by
  have q1 : (yaw Real.pi).mul (Quat.one.mul (yaw (-Real.pi))) = Quat.one := by
    rw [one_mul_quat, yaw_mul, add_neg_cancel, yaw_zero]
  have q0 : (yaw Real.pi).mul ((0 : Quat ℝ).mul (yaw (-Real.pi))) = 0 := by
    show ((after (yaw Real.pi)).comp (before (yaw (-Real.pi)))) 0 = 0
    exact map_zero _
  have m1 : (byAngle Real.pi).Q * 1 * (byAngle Real.pi).Qᵀ = 1 := by rw [mul_one, orth']
  refine sym_start becalmed_upright ⟨rfl, rfl, rfl, ⟨?_, ?_, ?_, ?_⟩, fun k => ⟨?_, ?_, ?_, ?_⟩, ⟨rfl, rfl, ?_, ?_, ?_, ?_⟩⟩
  · intro k hk
    have hk' : k < 2 := hk
    funext j
    interval_cases k <;> simp [outset, ownSim, ownState, stateTurned, half_turn, otherSide]
  · intro i hi
    simp [outset, ownSim, ownState, stateTurned]
  · intro i hi
    exact absurd hi (Nat.not_lt_zero i)
  · intro b hb
    simp [outset, ownSim, ownState, ratesTurned, q0]
  · intro k hk
    funext j
    simp [outset, ownSim, ownDeriv, derivTurned, ratesTurned]
  · intro i hi
    simp [outset, ownSim, ownDeriv, derivTurned, ratesTurned]
  · intro i hi
    exact absurd hi (Nat.not_lt_zero i)
  · intro b hb
    simp [outset, ownSim, ownDeriv, ratesTurned, q0]
  · intro b hb
    simp [outset, ownSim, ownMem, becalmed, ratesTurned, q1, orth']
  · intro i hi
    exact absurd hi (Nat.not_lt_zero i)
  · intro i hi
    have hi' : i < 4 := hi
    interval_cases i <;> simp [outset, ownSim, ownMem, memTurned, becalmed, otherSide, half_turn]
  · intro k hk
    have hk' : k < 2 := hk
    interval_cases k <;> simp [outset, ownSim, ownMem, memTurned, becalmed, otherSide, View.shape, view_place, view_vel, half_turn] <;>
      exact ⟨rfl, rfl⟩

/-- The hypotheses of `C117_symmetric_partial` and `C117_axis_partial` for the platform: the call runs, and nothing is met on which the axes would have an influence. -/
example (relax : ℕ → ℕ → ℝ) (conv : State (Quat ℝ) × State (Quat ℝ) → State (Quat ℝ) × State (Quat ℝ) → Bool) (sc : Time.Scheme ℝ) :
    pair.Symmetric Real.pi 0 (fun _ => Real.pi) Real.pi otherSide ∧ pair.Rightly ∧ (∀ i < pair.nr, (pair.rod i).N ≠ 0) ∧ pair.Trimmed ∧ (∀ b, Round (pair.body b)) ∧
      SameFresh otherSide pair.code ⟨fun _ => true, fun _ => true, fun _ => true, fun _ => true⟩ ⟨fun _ => true, fun _ => true, fun _ => true, fun _ => true⟩ ∧
      pair.SymAsked Real.pi 0 (fun _ => Real.pi) Real.pi otherSide lift ∧ pair.SymSim Real.pi 0 (fun _ => Real.pi) Real.pi otherSide outset ∧
      Connected pair.code outset.m ∧ Real.cos Real.pi ≠ 1 ∧ (byAngle Real.pi).Q *ᵥ 0 + 0 = (0 : V) ∧ otherSide.body 0 = 0 ∧
      ∃ fuel w, [lift].foldlM (watchedCall (ownTurned Real.pi 0 (fun _ => Real.pi) Real.pi) pair.code ((Each.code pair.code.pose relax).aux conv
          ⟨fun _ => true, fun _ => true, fun _ => true, fun _ => true⟩) sc (1 / 1000) fuel)
        ⟨outset.t, outset.tl, outset.r, outset.rd, outset.n, (outset.m, False)⟩ = some w ∧ ¬ w.m.2 := by
  refine ⟨pair_symmetric, pair_rightly, ?_, ⟨?_, ?_⟩, ?_, ⟨fun _ _ => rfl, fun _ _ => rfl, fun _ _ => rfl, fun _ _ => rfl⟩, ⟨?_, ?_, ?_, ?_, ?_⟩,
    outset_sym, ⟨?_, ?_, ?_, ?_⟩, ?_, ?_, rfl, ?_⟩
  · intro i hi
    exact absurd hi (Nat.not_lt_zero i)
  · intro b a ha
    exact absurd ha List.not_mem_nil
  · intro u v hu hv _
    exact aHalf_turns hu hv
  · intro b
    constructor <;> simp [pair]
  · intro b _
    simp [lift, half_turn]
  · intro i hi
    exact absurd hi (Nat.not_lt_zero i)
  · intro i _
    simp [lift]
    rfl
  · intro b _ _
    simp [lift, Level]
  · intro i hi
    exact absurd hi (Nat.not_lt_zero i)
  · intro b a ha
    rcases pair_pts b a ha with ⟨rfl, rfl⟩ | ⟨rfl, rfl⟩ | ⟨rfl, rfl⟩ | ⟨rfl, rfl⟩ <;> simp [PointOn, Mem.bodyOf, outset, becalmed]
  · intro b a ha
    exact absurd ha List.not_mem_nil
  · intro i hi a ha
    rcases pair_ends (.point i) a ha with ⟨e, rfl⟩ | ⟨e, rfl⟩ | ⟨e, rfl⟩ | ⟨e, rfl⟩ <;> cases e <;>
      exact ⟨0, by simp [tip, outset, becalmed, Gear.code, pair]; try norm_num⟩
  · intro i hi
    exact absurd hi (Nat.not_lt_zero i)
  · rw [Real.cos_pi]
    norm_num
  · simp
  · obtain ⟨fuel, e, h⟩ := call_ends pair.code ((Each.code pair.code.pose relax).aux conv ⟨fun _ => true, fun _ => true, fun _ => true, fun _ => true⟩) sc
      (dtM0 := 1 / 1000) (by norm_num) lift (by norm_num [lift]) outset
    obtain ⟨w, h1, h2⟩ := never_met (o := ownTurned Real.pi 0 (fun _ => Real.pi) Real.pi) (S := pair.code)
      (fun e => ⟨fun i hi => absurd hi (Nat.not_lt_zero i), fun b _ hk => False.elim hk⟩)
      (fun m i hi => absurd hi (Nat.not_lt_zero i)) _ sc _ fuel [lift] _ e (by rw [List.foldlM_cons, h]; rfl)
    exact ⟨fuel, w, h1, h2⟩

/-- The hypotheses of `C118_axes_partial` for the platform: its own axes can be turned by any angle. -/
example (θ : ℝ) (d : V) (h : ℕ → ℝ) (g : ℝ) (relax : ℕ → ℕ → ℝ) (conv : State (Quat ℝ) × State (Quat ℝ) → State (Quat ℝ) × State (Quat ℝ) → Bool)
    (fr : Fresh) (sc : Time.Scheme ℝ) : (∀ b, h b = 0 ∨ Round (pair.body b)) ∧ pair.Standing θ outset.m ∧ Level (lift.body 0) ∧
      ((pair.turned θ d h g).pts (some 0) = [(2, (byAngle (h 0)).Q *ᵥ ![5, 0, -2]), (3, (byAngle (h 0)).Q *ᵥ ![-5, 0, -2])]) ∧
      ∃ fuel w, [lift].foldlM (watchedCall (ownTurned θ d h g) pair.code ((Each.code pair.code.pose relax).aux conv fr) sc (1 / 1000) fuel)
        ⟨outset.t, outset.tl, outset.r, outset.rd, outset.n, (outset.m, False)⟩ = some w ∧ ¬ w.m.2 := by
  refine ⟨fun b => .inr ⟨rfl, rfl, rfl, rfl, rfl⟩, becalmed_upright.standing θ, ⟨rfl, rfl, rfl, rfl⟩, rfl, ?_⟩
  obtain ⟨fuel, e, h⟩ := call_ends pair.code ((Each.code pair.code.pose relax).aux conv fr) sc (dtM0 := 1 / 1000) (by norm_num) lift
    (by norm_num [lift]) outset
  obtain ⟨w, h1, h2⟩ := never_met (o := ownTurned θ d _ g) (S := pair.code)
    (fun e => ⟨fun i hi => absurd hi (Nat.not_lt_zero i), fun b _ hk => False.elim hk⟩)
    (fun m i hi => absurd hi (Nat.not_lt_zero i)) _ sc _ fuel [lift] _ e (by rw [List.foldlM_cons, h]; rfl)
  exact ⟨fuel, w, h1, h2⟩

/-- The platform is moved aside and tilted about all axes. -/
noncomputable def tilt : Asked := ⟨fun _ => ((![3, 1, 1], ![1 / 5, 3 / 10, 1]), (![1, 0, 1 / 2], ![1 / 10, 1 / 20, 1 / 10])), fun _ => 0, fun _ => 0, 1 / 2⟩

/-- The hypotheses of `C118_own_partial` for the platform when it is tilted: its own axes can be turned by any angle. -/
example (h : ℕ → ℝ) (g : ℝ) (relax : ℕ → ℕ → ℝ) (conv : State (Quat ℝ) × State (Quat ℝ) → State (Quat ℝ) × State (Quat ℝ) → Bool)
    (fr : Fresh) (sc : Time.Scheme ℝ) : (∀ b, h b = 0 ∨ Round (pair.body b)) ∧ IsGround outset.m.ground ∧ (∀ i, 0 < (outset.m.rod i).quat.normSq) ∧
      ¬ Level (tilt.body 0) ∧
      ∃ fuel w, [tilt].foldlM (watchedCall (ownTurned 0 0 h g) pair.code ((Each.code pair.code.pose relax).aux conv fr) sc (1 / 1000) fuel)
        ⟨outset.t, outset.tl, outset.r, outset.rd, outset.n, (outset.m, False)⟩ = some w ∧ ¬ w.m.2 := by
  refine ⟨fun b => .inr ⟨rfl, rfl, rfl, rfl, rfl⟩, becalmed_upright.ground, becalmed_upright.rods, ?_, ?_⟩
  · simp [tilt, Level]
  obtain ⟨fuel, e, h⟩ := call_ends pair.code ((Each.code pair.code.pose relax).aux conv fr) sc (dtM0 := 1 / 1000) (by norm_num) tilt
    (by norm_num [tilt]) outset
  obtain ⟨w, h1, h2⟩ := never_met (o := ownTurned 0 0 _ g) (S := pair.code)
    (fun e => ⟨fun i hi => absurd hi (Nat.not_lt_zero i), fun b _ hk => False.elim hk⟩)
    (fun m i hi => absurd hi (Nat.not_lt_zero i)) _ sc _ fuel [tilt] _ e (by rw [List.foldlM_cons, h]; rfl)
  exact ⟨fuel, w, h1, h2⟩

end MD.Whole
