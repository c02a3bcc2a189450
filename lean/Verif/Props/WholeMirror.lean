import Verif.Lemmas.MirrorView
import Verif.Props.WholeSymmetry

/-!
# C119: a system whose two sides are mirror images stays so, and a ship in head seas does not leave its plane
-/

set_option linter.unusedSimpArgs false
set_option linter.unusedSectionVars false
set_option linter.unusedVariables false
set_option linter.unnecessarySeqFocus false

namespace MD.Whole

open MD.Mooring Matrix MD.Mat MD.Rot MD.Frame

variable {d : V} {G : Gear} {β : Names}

/-- **C119**: the simulation of a system of bodies, rods, points and lines in a mirror, with all forces of the code, is the image in the mirror of
the simulation of the system, with every scheme but that of Anderson.  Places, velocities and axes are mirrored; angular velocities also change
their sign; the force on a body is mirrored and the moment also changes its sign; the tensions are the same. -/
theorem C119_image_partial (hd : d 2 = 0) (ht : ∀ b, ∀ a ∈ G.rods b, a.1 < G.nr) (hG : G.Trimmed)
    (relax : ℕ → ℕ → ℝ) (conv conv' : State (Quat ℝ) × State (Quat ℝ) → State (Quat ℝ) × State (Quat ℝ) → Bool) (fr : Fresh)
    (sc : Time.Scheme ℝ) (hsc : Relate.NotAnderson sc) (dtM0 : ℝ) (fuel : ℕ) (calls : List Asked)
    (s e : Time.Sim ℝ (State (Quat ℝ)) GearMem) (hs : IsGround s.m.ground)
    (he : calls.foldlM (call G.code ((Each.code G.code.pose relax).aux conv fr) sc dtM0 fuel) s = some e) :
    ∃ e', (calls.map (Asked.mirrored d)).foldlM (call (G.mirrored d).code ((Each.code G.code.pose relax).aux conv' fr) sc dtM0 fuel)
        (simMirrored d s) = some e' ∧
      (∀ i, (e'.m.point i).r = mirror.Q *ᵥ (e.m.point i).r + d ∧ (e'.m.point i).rd = mirror.Q *ᵥ (e.m.point i).rd) ∧
      (∀ i, (e'.m.rod i).pos = mirror.Q *ᵥ (e.m.rod i).pos + d ∧ (e'.m.rod i).vel = mirror.Q *ᵥ (e.m.rod i).vel ∧
        (e'.m.rod i).w = -(mirror.Q *ᵥ (e.m.rod i).w) ∧ (e'.m.rod i).q = mirror.Q *ᵥ (e.m.rod i).q) ∧
      (∀ b, (e'.m.body b).pos = mirror.Q *ᵥ (e.m.body b).pos + d ∧ (e'.m.body b).orMat = mirror.Q * (e.m.body b).orMat * mirror.Qᵀ ∧
        (e'.m.body b).vel = mirror.Q *ᵥ (e.m.body b).vel ∧ (e'.m.body b).w = -(mirror.Q *ᵥ (e.m.body b).w) ∧
        (e'.m.body b).F.map (fun F => (F.1, F.2.1)) = (e.m.body b).F.map fun F => (mirror.Q *ᵥ F.1, -(mirror.Q *ᵥ F.2.1))) ∧
      (∀ k j, (e'.m.line k).s.r j = mirror.Q *ᵥ (e.m.line k).s.r j + d ∧ (e'.m.line k).s.rd j = mirror.Q *ᵥ (e.m.line k).s.rd j) ∧
      (∀ k, fairTen ((G.mirrored d).lineNow k (e'.m.line k).s) = fairTen (G.lineNow k (e.m.line k).s)) := by
  have hc : List.Forall₂ (ViewAsked (inMirror d) G.code (G.mirrored d).code) calls (calls.map (Asked.mirrored d)) := by
    rw [List.forall₂_map_right_iff, List.forall₂_same]
    exact fun x _ => mirror_asked d G x
  obtain ⟨e', h1, h2⟩ := simulation_view (mirror_similar d G hd ht hG) (fun _ => trivial) (fun _ => trivial) (mirror_each d G relax) conv conv' fr sc
    (.inl hsc) dtM0 fuel calls _ hc s _ e (mirror_sim d G s hs) he
  have e1 : (inMirror d).tim * dtM0 = dtM0 := one_mul _
  rw [e1] at h1
  have hspin : ∀ w, (inMirror d).spin w = -(mirror.Q *ᵥ w) := fun w => (mirror_spin d w).trans (axial_mirror w)
  refine ⟨e', h1, fun i => ⟨?_, ?_⟩, fun i => ⟨?_, ?_, ?_, (h2.m.rod i).q⟩, fun b => ⟨?_, (h2.m.body b).orMat, ?_, ?_, ?_⟩,
    fun k j => ⟨?_, ?_⟩, fun k => ?_⟩
  · exact (h2.m.point i).r.trans (mirror_place d _)
  · exact (h2.m.point i).rd.trans (mirror_vel d _)
  · exact (h2.m.rod i).pos.trans (mirror_place d _)
  · exact (h2.m.rod i).vel.trans (mirror_vel d _)
  · exact (h2.m.rod i).w.trans (hspin _)
  · exact (h2.m.body b).pos.trans (mirror_place d _)
  · exact (h2.m.body b).vel.trans (mirror_vel d _)
  · exact (h2.m.body b).w.trans (hspin _)
  · rw [(h2.m.body b).F]
    show Option.map _ (Option.map _ _) = _
    rw [Option.map_map]
    congr 1
    funext F
    show (mirror.Q *ᵥ F.1, axialV mirror F.2.1) = _
    rw [axial_mirror]
  · rw [(h2.m.line k).s]
    exact mirror_place d _
  · rw [(h2.m.line k).s]
    exact mirror_vel d _
  · rw [(h2.m.line k).s, mirror_shape]
    have e5 := seen_line mirror d Quat.one G k (e.m.line k).s
    have e6 := (C99_reported (G.lineNow k (e.m.line k).s) (seen_env mirror d Quat.one G hd fun _ => (0, 0, 0, 0)) 0).2.1
    rw [← e5] at e6
    exact e6

/-- **C119**: a system of bodies, rods, points and lines whose two sides are mirror images of each other, with a bottom and water that are the same
on both sides, stays so, with all forces of the code and every scheme but that of Anderson: if the start is symmetric, and what is asked for
in the calls, then after any number of calls each object is where the image of its counterpart is, velocities and axes are mirrored, angular
velocities and moments also change their sign, and counterparts have the same fairlead tensions. -/
theorem C119_sides_partial (hS : G.TwoSided d β) (hd : d 2 = 0) (hG : G.Rightly) (hT : G.Trimmed)
    (relax : ℕ → ℕ → ℝ) (conv : State (Quat ℝ) × State (Quat ℝ) → State (Quat ℝ) × State (Quat ℝ) → Bool) {fr : Fresh}
    (hf : SameFresh β G.code fr fr) (sc : Time.Scheme ℝ) (hsc : Relate.NotAnderson sc) (dtM0 : ℝ) (fuel : ℕ) (calls : List Asked)
    (hc : ∀ x ∈ calls, G.TwoSidedAsked d β x) (s e : Time.Sim ℝ (State (Quat ℝ)) GearMem) (hs : G.TwoSidedSim d β s) (hm : Connected G.code s.m)
    (he : calls.foldlM (call G.code ((Each.code G.code.pose relax).aux conv fr) sc dtM0 fuel) s = some e) :
    G.TwoSidedSim d β e ∧
      (∀ i < G.np, (e.m.point (β.point i)).r = mirror.Q *ᵥ (e.m.point i).r + d ∧
        (e.m.point (β.point i)).rd = mirror.Q *ᵥ (e.m.point i).rd ∧
        (e.m.point (β.point i)).F.map (fun p => (p.doRHS G.env.rho_w G.env.g).1) =
          (e.m.point i).F.map fun p => mirror.Q *ᵥ (p.doRHS G.env.rho_w G.env.g).1) ∧
      (∀ i < G.nr, (e.m.rod (β.rod i)).pos = mirror.Q *ᵥ (e.m.rod i).pos + d ∧ (e.m.rod (β.rod i)).vel = mirror.Q *ᵥ (e.m.rod i).vel ∧
        (e.m.rod (β.rod i)).w = -(mirror.Q *ᵥ (e.m.rod i).w) ∧ (e.m.rod (β.rod i)).q = mirror.Q *ᵥ (e.m.rod i).q) ∧
      (∀ b < G.nb, (e.m.body (β.body b)).pos = mirror.Q *ᵥ (e.m.body b).pos + d ∧
        (e.m.body (β.body b)).orMat = mirror.Q * (e.m.body b).orMat * mirror.Qᵀ ∧
        (e.m.body (β.body b)).vel = mirror.Q *ᵥ (e.m.body b).vel ∧ (e.m.body (β.body b)).w = -(mirror.Q *ᵥ (e.m.body b).w) ∧
        (e.m.body (β.body b)).F.map (fun F => (F.1, F.2.1)) = (e.m.body b).F.map fun F => (mirror.Q *ᵥ F.1, -(mirror.Q *ᵥ F.2.1))) ∧
      (∀ k < G.nl, ∀ j, (e.m.line (β.line k)).s.r j = mirror.Q *ᵥ (e.m.line k).s.r j + d ∧
        (e.m.line (β.line k)).s.rd j = mirror.Q *ᵥ (e.m.line k).s.rd j) ∧
      (∀ k < G.nl, fairTen (G.lineNow (β.line k) (e.m.line (β.line k)).s) = fairTen (G.lineNow k (e.m.line k).s)) := by
  obtain ⟨s', hv, hw⟩ := hs
  have hc1 : List.Forall₂ (ViewAsked (inMirror d) G.code (G.mirrored d).code) calls (calls.map (Asked.mirrored d)) := by
    rw [List.forall₂_map_right_iff, List.forall₂_same]
    exact fun x _ => mirror_asked d G x
  have hc2 : List.Forall₂ (SameAsked β (G.mirrored d).code) calls (calls.map (Asked.mirrored d)) := by
    rw [List.forall₂_map_right_iff, List.forall₂_same]
    exact fun x hx => ⟨rfl, fun b hb => ((hc x hx).body b hb).symm, fun i hi => ((hc x hx).rod i hi).symm, fun i hi => ((hc x hx).point i hi).symm⟩
  obtain ⟨e', h3, h4⟩ := simulation_view (mirror_similar d G hd hG.sound.rodsNum hT) (fun _ => trivial) (fun _ => trivial) (mirror_each d G relax)
    conv conv fr sc (.inl hsc) dtM0 fuel calls _ hc1 s _ e hv he
  have e1 : (inMirror d).tim * dtM0 = dtM0 := one_mul _
  rw [e1] at h3
  obtain ⟨e'', h5, h6⟩ := C106_gear_partial hS hG (hG.mirrored d G) (Each.code G.code.pose relax) conv conv
    ⟨hf.line, hf.point, hf.rod, hf.body⟩ sc hsc dtM0 fuel calls _ hc2 s s' e hw hm he
  have e2 : e'' = e' := Option.some.inj (h5.symm.trans h3)
  subst e2
  have hspin : ∀ w, (inMirror d).spin w = -(mirror.Q *ᵥ w) := fun w => (mirror_spin d w).trans (axial_mirror w)
  refine ⟨⟨e'', h4, h6⟩, fun i hi => ⟨?_, ?_, ?_⟩, fun i hi => ⟨?_, ?_, ?_, ?_⟩, fun b hb => ⟨?_, ?_, ?_, ?_, ?_⟩,
    fun k hk j => ⟨?_, ?_⟩, fun k hk => ?_⟩
  · rw [← h6.m.point i hi]
    exact (h4.m.point i).r.trans (mirror_place d _)
  · rw [← h6.m.point i hi]
    exact (h4.m.point i).rd.trans (mirror_vel d _)
  · rw [← h6.m.point i hi, (h4.m.point i).F]
    show ((e.m.point i).F.map (point mirror d)).map _ = _
    rw [Option.map_map]
    congr 1
    funext p
    show ((point mirror d p).doRHS G.env.rho_w G.env.g).1 = _
    rw [C99_point]
  · rw [← h6.m.rod i hi]
    exact (h4.m.rod i).pos.trans (mirror_place d _)
  · rw [← h6.m.rod i hi]
    exact (h4.m.rod i).vel.trans (mirror_vel d _)
  · rw [← h6.m.rod i hi]
    exact (h4.m.rod i).w.trans (hspin _)
  · rw [← h6.m.rod i hi]
    exact (h4.m.rod i).q
  · rw [← h6.m.body b hb]
    exact (h4.m.body b).pos.trans (mirror_place d _)
  · rw [← h6.m.body b hb]
    exact (h4.m.body b).orMat
  · rw [← h6.m.body b hb]
    exact (h4.m.body b).vel.trans (mirror_vel d _)
  · rw [← h6.m.body b hb]
    exact (h4.m.body b).w.trans (hspin _)
  · rw [← h6.m.body b hb, (h4.m.body b).F]
    show Option.map _ (Option.map _ _) = _
    rw [Option.map_map]
    congr 1
    funext F
    show (mirror.Q *ᵥ F.1, axialV mirror F.2.1) = _
    rw [axial_mirror]
  · rw [← h6.m.line k hk, (h4.m.line k).s]
    exact mirror_place d _
  · rw [← h6.m.line k hk, (h4.m.line k).s]
    exact mirror_vel d _
  · have e3 : G.lineNow (β.line k) (e.m.line (β.line k)).s = (G.mirrored d).lineNow k (e''.m.line k).s := by
      rw [h6.m.line k hk]
      unfold Gear.lineNow
      rw [hS.line k hk]
    rw [e3, (h4.m.line k).s, mirror_shape]
    have e5 := seen_line mirror d Quat.one G k (e.m.line k).s
    have e6 := (C99_reported (G.lineNow k (e.m.line k).s) (seen_env mirror d Quat.one G hd fun _ => (0, 0, 0, 0)) 0).2.1
    rw [← e5] at e6
    exact e6

theorem mirror_apply (v : V) : mirror.Q *ᵥ v = ![v 0, -v 1, v 2] := by
  ext i
  fin_cases i <;> simp [mirror, mulVec, dotProduct, Fin.sum_univ_three]

theorem in_plane {v : V} {d : V} (hv : v = mirror.Q *ᵥ v + d) : v 1 = d 1 / 2 := by
  have h1 := congrFun hv 1
  rw [mirror_apply] at h1
  simp at h1
  linarith

theorem in_plane0 {v : V} (hv : v = mirror.Q *ᵥ v) : v 1 = 0 := by
  have := in_plane (d := 0) (v := v) (by rw [add_zero]; exact hv)
  simpa using this

theorem about_normal {v : V} (hv : v = -(mirror.Q *ᵥ v)) : v 0 = 0 ∧ v 2 = 0 := by
  have h0 := congrFun hv 0
  have h2 := congrFun hv 2
  rw [mirror_apply] at h0 h2
  simp at h0 h2
  constructor <;> linarith

/-- **C119**: a body that is its own image stays in the plane of symmetry: it does not sway, roll or yaw, the force on it is in the plane, and the
moment is that of pitch.  So do points, rods and lines that are their own images. -/
theorem C119_plane_partial (hS : G.TwoSided d β) (hd : d 2 = 0) (hG : G.Rightly) (hT : G.Trimmed)
    (relax : ℕ → ℕ → ℝ) (conv : State (Quat ℝ) × State (Quat ℝ) → State (Quat ℝ) × State (Quat ℝ) → Bool) {fr : Fresh}
    (hf : SameFresh β G.code fr fr) (sc : Time.Scheme ℝ) (hsc : Relate.NotAnderson sc) (dtM0 : ℝ) (fuel : ℕ) (calls : List Asked)
    (hc : ∀ x ∈ calls, G.TwoSidedAsked d β x) (s e : Time.Sim ℝ (State (Quat ℝ)) GearMem) (hs : G.TwoSidedSim d β s) (hm : Connected G.code s.m)
    (he : calls.foldlM (call G.code ((Each.code G.code.pose relax).aux conv fr) sc dtM0 fuel) s = some e) :
    (∀ b < G.nb, β.body b = b →
      (e.m.body b).pos 1 = d 1 / 2 ∧ (e.m.body b).vel 1 = 0 ∧ (e.m.body b).w 0 = 0 ∧ (e.m.body b).w 2 = 0 ∧
      (e.m.body b).orMat 0 1 = 0 ∧ (e.m.body b).orMat 1 0 = 0 ∧ (e.m.body b).orMat 1 2 = 0 ∧ (e.m.body b).orMat 2 1 = 0 ∧
      ∀ F ∈ (e.m.body b).F, F.1 1 = 0 ∧ F.2.1 0 = 0 ∧ F.2.1 2 = 0) ∧
    (∀ i < G.nr, β.rod i = i → (e.m.rod i).pos 1 = d 1 / 2 ∧ (e.m.rod i).vel 1 = 0 ∧ (e.m.rod i).w 0 = 0 ∧ (e.m.rod i).w 2 = 0 ∧ (e.m.rod i).q 1 = 0) ∧
    (∀ i < G.np, β.point i = i → (e.m.point i).r 1 = d 1 / 2 ∧ (e.m.point i).rd 1 = 0 ∧
      ∀ p ∈ (e.m.point i).F, (p.doRHS G.env.rho_w G.env.g).1 1 = 0) ∧
    (∀ k < G.nl, β.line k = k → ∀ j, (e.m.line k).s.r j 1 = d 1 / 2 ∧ (e.m.line k).s.rd j 1 = 0) := by
  obtain ⟨-, h1, h2, h3, h4, -⟩ := C119_sides_partial hS hd hG hT relax conv hf sc hsc dtM0 fuel calls hc s e hs hm he
  refine ⟨fun b hb hβ => ?_, fun i hi hβ => ?_, fun i hi hβ => ?_, fun k hk hβ j => ?_⟩
  · obtain ⟨p1, p2, p3, p4, p5⟩ := h3 b hb
    rw [hβ] at p1 p2 p3 p4 p5
    generalize e.m.body b = B at *
    obtain ⟨a1, a2⟩ := about_normal p4
    have g : ∀ i j : Fin 3, B.orMat i j = (mirror.Q * B.orMat * mirror.Qᵀ) i j := fun i j => congrFun (congrFun p2 i) j
    have g1 := g 0 1
    have g2 := g 1 0
    have g3 := g 1 2
    have g4 := g 2 1
    simp [mirror, Matrix.mul_apply, Fin.sum_univ_three, vecMul, dotProduct] at g1 g2 g3 g4
    refine ⟨in_plane p1, in_plane0 p3, a1, a2, by linarith, by linarith, by linarith, by linarith, fun F hF => ?_⟩
    rw [Option.mem_def] at hF
    rw [hF] at p5
    have p6 : (F.1, F.2.1) = (mirror.Q *ᵥ F.1, -(mirror.Q *ᵥ F.2.1)) := Option.some.inj p5
    obtain ⟨b1, b2⟩ := about_normal (congrArg Prod.snd p6)
    exact ⟨in_plane0 (congrArg Prod.fst p6), b1, b2⟩
  · obtain ⟨p1, p2, p3, p4⟩ := h2 i hi
    rw [hβ] at p1 p2 p3 p4
    obtain ⟨a1, a2⟩ := about_normal p3
    exact ⟨in_plane p1, in_plane0 p2, a1, a2, in_plane0 p4⟩
  · obtain ⟨p1, p2, p3⟩ := h1 i hi
    rw [hβ] at p1 p2 p3
    refine ⟨in_plane p1, in_plane0 p2, fun p hp => ?_⟩
    rw [Option.mem_def] at hp
    rw [hp] at p3
    exact in_plane0 (Option.some.inj p3)
  · obtain ⟨p1, p2⟩ := h4 k hk j
    rw [hβ] at p1 p2
    exact ⟨in_plane p1, in_plane0 p2⟩

/-! ## Cases -/

/-- A ship, free to move, with a raked mast that is a rod, and with two mooring lines of three segments from its bow to anchors on either side, on a bottom that falls off
to both sides, in water that flows along the ship and apart. -/
noncomputable def ship : Gear where
  nb := 1
  nr := 1
  np := 4
  nl := 2
  bkind _ := .FREE
  rkind _ := .FIXED
  pkind _ := .FIXED
  pts
    | none => [(0, ![60, 80, -50]), (1, ![60, -80, -50])]
    | some 0 => [(2, ![30, 5, -2]), (3, ![30, -5, -2])]
    | some _ => []
  rods
    | some 0 => [(0, ![10, 0, 3], ![3 / 5, 0, 4 / 5])]
    | _ => []
  ends
    | 0 => [(0, .BOTTOM)]
    | 1 => [(1, .BOTTOM)]
    | 2 => [(0, .TOP)]
    | 3 => [(1, .TOP)]
    | _ => []
  endsA _ := []
  endsB _ := []
  q0 _ := ![3 / 5, 0, 4 / 5]
  line _ := ⟨3, 1 / 10, Real.pi / 400, 5000, 10 ^ 9, 0, 0, 1, 0, 1, 0, none, none, none, false, fun _ => 37, fun _ => 37 * (Real.pi / 400), 0, 0,
    .PINNED, .PINNED, 0, 0, 0, false⟩
  point _ := ⟨0, 0, 0, 0, 0, 0, 0, 0, []⟩
  rod _ := ⟨2, 1 / 2, 5000, 1, 0, 1, 1, 1, 20, 0, 0, 0, 0, [], []⟩
  body _ := ⟨10 ^ 6, 1000, ![1, 0, -1], ![10 ^ 7, 10 ^ 8, 10 ^ 8], ![10, 50, 200], 0, 1, 0, 0, 1, 0, 0, 0⟩
  env := ⟨1025, 98 / 10, 10 ^ 5, 10 ^ 4, 0, 0, 0, fun x y => -50 - x / 100 - y ^ 2 / 10 ^ 6, fun _ => 0, fun _ => 0, fun _ => 0, fun _ => 0⟩
  kin t x := (0, ![1 + t, x 1 / 100, 0], ![1, 0, 0], 0)
  half := aHalf

/-- Where all is in the beginning. -/
noncomputable def berthed : GearMem where
  t := 0
  line k := ⟨⟨fun j => ![60 - 10 * j, (if k = 0 then 1 else -1) * (80 - 25 * j), 16 * j - 50], 0, .PINNED, .PINNED, 0, 0⟩, ⟨fun _ => none, 0⟩⟩
  point i := ⟨![if i < 2 then 60 else 30, (if i % 2 = 0 then 1 else -1) * (if i < 2 then 80 else 5), if i < 2 then -50 else -2], 0, 0, none⟩
  rod _ := ⟨![10, 0, 3], Quat.one, 0, 0, ![3 / 5, 0, 4 / 5], fun j => ![10, 0, 3] + (10 * (j : ℝ)) • ![3 / 5, 0, 4 / 5], 0, 0, 0, ⟨2, ![10, 0, 3], fun _ _ => none⟩⟩
  body _ := ⟨0, Quat.one, 0, 0, 1, 0, 0, none⟩
  ground := ⟨0, Quat.one, 0, 0, 1, 0, 0, none⟩

/-- The first moment. -/
noncomputable def castOff : Time.Sim ℝ (State (Quat ℝ)) GearMem :=
  ⟨0, 0, fun _ => (fun k j => (![60 - 10 * (j + 1), (if k = 0 then 1 else -1) * (80 - 25 * (j + 1)), 16 * (j + 1) - 50], 0), 0, 0,
    fun _ => ((0, Quat.one), 0)), fun _ => 0, 0, berthed⟩

/-- Nothing is asked for, for half a second. -/
noncomputable def adrift : Asked := ⟨fun _ => 0, fun _ => 0, fun _ => 0, 1 / 2⟩

theorem ship_pts (b : Option ℕ) (a : ℕ × V) (ha : a ∈ ship.pts b) : (b = none ∧ a = (0, ![60, 80, -50])) ∨ (b = none ∧ a = (1, ![60, -80, -50])) ∨
    (b = some 0 ∧ a = (2, ![30, 5, -2])) ∨ (b = some 0 ∧ a = (3, ![30, -5, -2])) := by
  rcases b with _ | _ | b <;> simp only [ship, List.mem_cons, List.not_mem_nil, or_false] at ha
  · rcases ha with rfl | rfl
    · exact .inl ⟨rfl, rfl⟩
    · exact .inr (.inl ⟨rfl, rfl⟩)
  · rcases ha with rfl | rfl
    · exact .inr (.inr (.inl ⟨rfl, rfl⟩))
    · exact .inr (.inr (.inr ⟨rfl, rfl⟩))

theorem ship_rods (b : Option ℕ) (a : ℕ × V × V) (ha : a ∈ ship.rods b) : b = some 0 ∧ a = (0, ![10, 0, 3], ![3 / 5, 0, 4 / 5]) := by
  rcases b with _ | _ | b <;> simp only [ship, List.mem_cons, List.not_mem_nil, or_false] at ha
  exact ⟨rfl, ha⟩

theorem ship_ends (u : Holder) (a : ℕ × EndPt) (ha : a ∈ u.list ship.code) : (u = .point 0 ∧ a = (0, .BOTTOM)) ∨ (u = .point 1 ∧ a = (1, .BOTTOM)) ∨
    (u = .point 2 ∧ a = (0, .TOP)) ∨ (u = .point 3 ∧ a = (1, .TOP)) := by
  rcases u with (_ | _ | _ | _ | i) | i | i
  · exact .inl ⟨rfl, List.mem_singleton.1 ha⟩
  · exact .inr (.inl ⟨rfl, List.mem_singleton.1 ha⟩)
  · exact .inr (.inr (.inl ⟨rfl, List.mem_singleton.1 ha⟩))
  · exact .inr (.inr (.inr ⟨rfl, List.mem_singleton.1 ha⟩))
  · cases ha
  · cases ha
  · cases ha

theorem ship_rightly : ship.Rightly := by
  refine ⟨⟨?_, ?_, ?_, ?_, ?_, ?_, ?_, ?_, ?_⟩, ?_, ?_, ?_⟩
  · intro u u' a ha ha'
    rcases ship_ends u a ha with ⟨rfl, rfl⟩ | ⟨rfl, rfl⟩ | ⟨rfl, rfl⟩ | ⟨rfl, rfl⟩ <;>
      rcases ship_ends u' _ ha' with ⟨rfl, e⟩ | ⟨rfl, e⟩ | ⟨rfl, e⟩ | ⟨rfl, e⟩ <;> first | rfl | simp at e
  · intro k
    show 0 < 3
    norm_num
  · intro b b' a ha a' ha' e
    rcases ship_pts b a ha with ⟨rfl, rfl⟩ | ⟨rfl, rfl⟩ | ⟨rfl, rfl⟩ | ⟨rfl, rfl⟩ <;>
      rcases ship_pts b' a' ha' with ⟨rfl, rfl⟩ | ⟨rfl, rfl⟩ | ⟨rfl, rfl⟩ | ⟨rfl, rfl⟩ <;> first | exact ⟨rfl, rfl⟩ | simp at e
  · intro b b' a ha a' ha' _
    obtain ⟨rfl, rfl⟩ := ship_rods b a ha
    obtain ⟨rfl, rfl⟩ := ship_rods b' a' ha'
    exact ⟨rfl, rfl⟩
  · intro b a ha
    rfl
  · intro b a ha
    exact .inl rfl
  · intro b a ha
    obtain ⟨rfl, rfl⟩ := ship_rods b a ha
    exact Nat.one_pos
  · intro b a ha
    show a.1 < 4
    rcases ship_pts b a ha with ⟨rfl, rfl⟩ | ⟨rfl, rfl⟩ | ⟨rfl, rfl⟩ | ⟨rfl, rfl⟩ <;> norm_num
  · rintro b (⟨a, ha⟩ | ⟨a, ha⟩)
    · show b < 1
      rcases ship_pts (some b) a ha with ⟨e, -⟩ | ⟨e, -⟩ | ⟨e, -⟩ | ⟨e, -⟩ <;> cases e <;> norm_num
    · show b < 1
      obtain ⟨e, -⟩ := ship_rods (some b) a ha
      cases e
      norm_num
  · intro i _
    show 0 < 2
    norm_num
  · intro k hk p
    have hk' : k = 0 ∨ k = 1 := by
      have : k < 2 := hk
      omega
    rcases hk' with rfl | rfl <;> cases p
    · exact .inl ⟨2, by show 2 < 4; norm_num, List.mem_singleton.2 rfl⟩
    · exact .inl ⟨0, by show 0 < 4; norm_num, List.mem_singleton.2 rfl⟩
    · exact .inl ⟨3, by show 3 < 4; norm_num, List.mem_singleton.2 rfl⟩
    · exact .inl ⟨1, by show 1 < 4; norm_num, List.mem_singleton.2 rfl⟩
  · intro u a ha
    show a.1 < 2
    rcases ship_ends u a ha with ⟨rfl, rfl⟩ | ⟨rfl, rfl⟩ | ⟨rfl, rfl⟩ | ⟨rfl, rfl⟩ <;> norm_num

theorem ship_ground : (ship.mirrored 0).pts none = [(0, ![60, -80, -50]), (1, ![60, 80, -50])] := by
  show (ship.pts none).map (fun a => (a.1, mirror.Q *ᵥ a.2 + 0)) = _
  simp [ship, mirror_apply]

theorem ship_deck : (ship.mirrored 0).pts (some 0) = [(2, ![30, -5, -2]), (3, ![30, 5, -2])] := by
  show (ship.pts (some 0)).map (fun a => (a.1, mirror.Q *ᵥ a.2)) = _
  simp [ship, mirror_apply]

theorem ship_mast : (ship.mirrored 0).rods (some 0) = [(0, ![10, 0, 3], ![3 / 5, 0, 4 / 5])] := by
  show (ship.rods (some 0)).map (fun a => (a.1, mirror.Q *ᵥ a.2.1, mirror.Q *ᵥ a.2.2)) = _
  simp [ship, mirror_apply]

theorem mirror_back (x : V) : back mirror 0 x = ![x 0, -x 1, x 2] := by
  unfold back
  rw [sub_zero, mirror_transpose, mirror_apply]

theorem ship_sides : ship.TwoSided 0 otherSide where
  nb b hb := hb
  nr i hi := hi
  np i hi := by
    have : i < 4 := hi
    show otherSide.point i < 4
    interval_cases i <;> decide
  nl k hk := by
    have : k < 2 := hk
    show otherSide.line k < 2
    interval_cases k <;> decide
  bkind _ _ := rfl
  rkind _ _ := rfl
  pkind _ _ := rfl
  pts b hb := by
    have : b = 0 := Nat.lt_one_iff.1 hb
    subst this
    rw [ship_deck]
    exact List.Perm.swap _ _ _
  rods b hb := by
    have : b = 0 := Nat.lt_one_iff.1 hb
    subst this
    rw [ship_mast]
    exact .refl _
  groundPts a ha := by
    rw [ship_ground] at ha
    simp only [List.mem_cons, List.not_mem_nil, or_false] at ha
    rcases ha with rfl | rfl
    · exact List.mem_cons_of_mem _ (List.mem_singleton.2 rfl)
    · exact List.mem_cons_self
  groundRods a ha := absurd ha List.not_mem_nil
  ptsBack i hi b rel hr := by
    have hi' : i < 4 := hi
    have h1 := ship_pts b _ hr
    interval_cases i
    · have e : otherSide.point 0 = 1 := by decide
      rw [e] at h1
      simp at h1
      obtain ⟨rfl, rfl⟩ := h1
      exact ⟨none, rfl, by rw [ship_ground]; simp⟩
    · have e : otherSide.point 1 = 0 := by decide
      rw [e] at h1
      simp at h1
      obtain ⟨rfl, rfl⟩ := h1
      exact ⟨none, rfl, by rw [ship_ground]; simp⟩
    · have e : otherSide.point 2 = 3 := by decide
      rw [e] at h1
      simp at h1
      obtain ⟨rfl, rfl⟩ := h1
      exact ⟨some 0, rfl, by rw [ship_deck]; simp⟩
    · have e : otherSide.point 3 = 2 := by decide
      rw [e] at h1
      simp at h1
      obtain ⟨rfl, rfl⟩ := h1
      exact ⟨some 0, rfl, by rw [ship_deck]; simp⟩
  rodsBack i hi b rel hr := by
    have : i = 0 := Nat.lt_one_iff.1 hi
    subst this
    obtain ⟨rfl, e⟩ := ship_rods b _ hr
    refine ⟨some 0, rfl, ?_⟩
    rw [ship_mast]
    exact List.mem_singleton.2 (Prod.ext rfl (congrArg Prod.snd e))
  ends i hi := by
    have hi' : i < 4 := hi
    interval_cases i <;> exact .refl _
  endsA i hi := .refl _
  endsB i hi := .refl _
  held := ship_rightly.held
  q0 i _ := by
    show mirror.Q *ᵥ ship.q0 i = ship.q0 (otherSide.rod i)
    simp [ship, mirror_apply]
  line _ _ := rfl
  point i _ := by
    show ({ ship.point i with pointF := _ } : Bodies.Point) = ship.point i
    simp [ship]
  rod _ _ := rfl
  body b _ := by
    show ({ ship.body b with body_rCG := mirror.Q *ᵥ (ship.body b).body_rCG } : Bodies.Body) = ship.body b
    simp [ship, mirror_apply]
  env := by
    show ({ ship.env with waterDepth := _ } : Env) = ship.env
    simp [mirror_back, ship]
  kin := by
    funext t x
    show waterSeen mirror (ship.kin t (back mirror 0 x)) = ship.kin t x
    rw [mirror_back]
    simp [waterSeen, ship, mirror_apply]
    ring
  half := rfl

theorem castOff_sides : ship.TwoSidedSim 0 otherSide castOff := by
  refine ⟨_, mirror_sim 0 ship castOff ⟨rfl, rfl, rfl, rfl, rfl⟩, ⟨rfl, rfl, rfl, ⟨?_, ?_, ?_, ?_⟩, fun k => ⟨?_, ?_, ?_, ?_⟩, ⟨rfl, rfl, ?_, ?_, ?_, ?_⟩⟩⟩
  · intro k hk
    have hk' : k < 2 := hk
    funext j
    interval_cases k <;> simp [castOff, simMirrored, stateMirrored, mirror_apply, otherSide]
  · intro i hi
    simp [castOff, simMirrored, stateMirrored]
  · intro i hi
    simp [castOff, simMirrored, stateMirrored, ratesMirrored]
  · intro b hb
    simp [castOff, simMirrored, stateMirrored, ratesMirrored, flip_one]
  · intro k hk
    funext j
    simp [castOff, simMirrored, derivMirrored]
  · intro i hi
    simp [castOff, simMirrored, derivMirrored]
  · intro i hi
    simp [castOff, simMirrored, derivMirrored, ratesMirrored]
  · intro b hb
    simp [castOff, simMirrored, derivMirrored, ratesMirrored]
  · intro b hb
    simp [castOff, simMirrored, memMirrored, berthed, ratesMirrored, poseMirrored, flip_one, orth']
  · intro i hi
    simp [castOff, simMirrored, memMirrored, berthed, ratesMirrored, poseMirrored, flip_one, mirror_apply, inMirror, mulVec_add, mulVec_smul]
    rfl
  · intro i hi
    have hi' : i < 4 := hi
    interval_cases i <;> simp [castOff, simMirrored, memMirrored, berthed, otherSide, mirror_apply]
  · intro k hk
    have hk' : k < 2 := hk
    interval_cases k <;> simp [castOff, simMirrored, memMirrored, berthed, otherSide, View.shape, mirror_place, mirror_vel, mirror_apply] <;>
      exact ⟨rfl, rfl⟩

theorem mast_stays : Rods.fromTwoVectors ![3 / 5, 0, 4 / 5] ![3 / 5, 0, 4 / 5] = some Quat.one := by
  have hu : (![3 / 5, 0, 4 / 5] : V) ⬝ᵥ ![3 / 5, 0, 4 / 5] = 1 := by
    simp [dotProduct, Fin.sum_univ_three]
    norm_num
  have h4 : Real.sqrt ((1 + 1) * 2) = 2 := by
    rw [show ((1 : ℝ) + 1) * 2 = 2 ^ 2 by norm_num, Real.sqrt_sq (by norm_num)]
  unfold Rods.fromTwoVectors
  rw [Rods.normalized_unit hu]
  simp only [hu, h4, cross_self]
  norm_num [Quat.one]

/-- The ground of `C119_image_partial`; its other hypotheses are among those of the next case. -/
example : IsGround castOff.m.ground := ⟨rfl, rfl, rfl, rfl, rfl⟩

/-- The hypotheses of `C119_sides_partial` and `C119_plane_partial` for the ship, with any scheme. -/
example (relax : ℕ → ℕ → ℝ) (conv : State (Quat ℝ) × State (Quat ℝ) → State (Quat ℝ) × State (Quat ℝ) → Bool) (sc : Time.Scheme ℝ) :
    ship.TwoSided 0 otherSide ∧ ship.Rightly ∧ ship.Trimmed ∧
      SameFresh otherSide ship.code ⟨fun _ => true, fun _ => true, fun _ => true, fun _ => true⟩ ⟨fun _ => true, fun _ => true, fun _ => true, fun _ => true⟩ ∧
      ship.TwoSidedAsked 0 otherSide adrift ∧ ship.TwoSidedSim 0 otherSide castOff ∧ Connected ship.code castOff.m ∧
      otherSide.body 0 = 0 ∧ otherSide.rod 0 = 0 ∧
      ∃ fuel e, [adrift].foldlM (call ship.code ((Each.code ship.code.pose relax).aux conv ⟨fun _ => true, fun _ => true, fun _ => true, fun _ => true⟩)
        sc (1 / 1000) fuel) castOff = some e := by
  refine ⟨ship_sides, ship_rightly, ⟨?_, ?_⟩, ⟨fun _ _ => rfl, fun _ _ => rfl, fun _ _ => rfl, fun _ _ => rfl⟩, ⟨?_, ?_, ?_⟩,
    castOff_sides, ⟨?_, ?_, ?_, ?_⟩, rfl, rfl, ?_⟩
  · intro b a ha _
    obtain ⟨rfl, rfl⟩ := ship_rods b a ha
    constructor <;> simp [ship, dotProduct, Fin.sum_univ_three] <;> norm_num
  · intro u v hu hv _
    exact aHalf_turns hu hv
  · intro b _
    simp [adrift]
    rfl
  · intro i _
    simp [adrift]
    rfl
  · intro i _
    simp [adrift]
    rfl
  · intro b a ha
    rcases ship_pts b a ha with ⟨rfl, rfl⟩ | ⟨rfl, rfl⟩ | ⟨rfl, rfl⟩ | ⟨rfl, rfl⟩ <;> simp [PointOn, Mem.bodyOf, castOff, berthed]
  · intro b a ha
    obtain ⟨rfl, rfl⟩ := ship_rods b a ha
    refine ⟨by simp [RodOn, Mem.bodyOf, castOff, berthed], fun _ => ⟨?_, rfl⟩⟩
    show Quat.one = (Rods.fromTwoVectors ![3 / 5, 0, 4 / 5] ((1 : M3 ℝ) *ᵥ ![3 / 5, 0, 4 / 5])).getD _
    rw [one_mulVec, mast_stays]
    rfl
  · intro i hi a ha
    rcases ship_ends (.point i) a ha with ⟨e, rfl⟩ | ⟨e, rfl⟩ | ⟨e, rfl⟩ | ⟨e, rfl⟩ <;> cases e <;>
      exact ⟨0, by simp [tip, castOff, berthed, Gear.code, ship]; try norm_num⟩
  · intro i hi
    have e : orMat Quat.one = 1 := Rods.orMat_one
    refine ⟨?_, rfl, fun _ => ⟨?_, ?_⟩, fun a ha => absurd ha List.not_mem_nil, fun a ha => absurd ha List.not_mem_nil⟩
    · simp [castOff, berthed]
    · show ![10, 0, 3] + (10 * ((2 : ℕ) : ℝ)) • ![3 / 5, 0, 4 / 5] = ![10, 0, 3] + (20 : ℝ) • (orMat Quat.one *ᵥ ![3 / 5, 0, 4 / 5])
      rw [e, one_mulVec]
      norm_num
    · show (0 : V) = 0 + (0 : V) ⨯₃ _
      simp
  · obtain ⟨fuel, e, h⟩ := call_ends ship.code ((Each.code ship.code.pose relax).aux conv ⟨fun _ => true, fun _ => true, fun _ => true, fun _ => true⟩) sc
      (dtM0 := 1 / 1000) (by norm_num) adrift (by norm_num [adrift]) castOff
    exact ⟨fuel, e, by rw [List.foldlM_cons, h]; rfl⟩

end MD.Whole
