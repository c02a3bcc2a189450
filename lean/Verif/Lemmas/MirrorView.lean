import Verif.Lemmas.Mirror
import Verif.Lemmas.OwnAxes

/-!
# The formulas of the code in a mirror
-/

set_option linter.unusedSimpArgs false
set_option linter.unusedSectionVars false
set_option linter.unusedVariables false
set_option linter.unnecessarySeqFocus false

namespace MD.Whole

open MD.Mooring Matrix MD.Mat MD.Rot MD.Frame

variable (d : V) (G : Gear)

theorem axial_mirror (w : V) : axialV mirror w = -(mirror.Q *ᵥ w) := by
  unfold axialV
  rw [mirror_det, neg_one_smul]

theorem mirror_transpose : mirror.Qᵀ = mirror.Q := by
  ext i j
  fin_cases i <;> fin_cases j <;> simp [mirror]

theorem mirror_twice (v : V) : mirror.Q *ᵥ (mirror.Q *ᵥ v) = v := by
  rw [mulVec_mulVec]
  nth_rw 1 [← mirror_transpose]
  rw [mirror.orth, one_mulVec]

theorem axial_twice (v : V) : axialV mirror (axialV mirror v) = v := by
  rw [axial_mirror, axial_mirror, mulVec_neg, neg_neg, mirror_twice]

theorem mirror_place (x : V) : (inMirror d).place x = mirror.Q *ᵥ x + d := by
  simp [View.place, inMirror]

theorem mirror_vel (x : V) : (inMirror d).vel x = mirror.Q *ᵥ x := by
  simp [View.vel, inMirror]

theorem mirror_spin (x : V) : (inMirror d).spin x = axialV mirror x := by
  rw [axial_mirror]
  simp [View.spin, inMirror]

theorem mirror_acc (x : V) : (inMirror d).acc x = mirror.Q *ᵥ x := by
  simp [View.acc, inMirror]

theorem mirror_spinAcc (x : V) : (inMirror d).spinAcc x = axialV mirror x := by
  rw [axial_mirror]
  simp [View.spinAcc, inMirror]

theorem mirror_shape (s : Shape) : (inMirror d).shape s = (seenFrom mirror d Quat.one).shape s := by
  unfold View.shape
  simp only [mirror_place, mirror_vel, view_place, view_vel]
  rfl

theorem flip_normSq (q : Quat ℝ) : (flip q).normSq = q.normSq := by
  show q.w * q.w + -q.x * -q.x + q.y * q.y + -q.z * -q.z = q.w * q.w + q.x * q.x + q.y * q.y + q.z * q.z
  ring

theorem flip_normalized (q : Quat ℝ) : (flip q).normalized = flip q.normalized := by
  unfold Quat.normalized
  rw [flip_normSq]
  split_ifs
  · exact (map_smul flip _ _).symm
  · rfl

theorem flip_toMat (q : Quat ℝ) : (flip q).toMat = mirror.Q * q.toMat * mirror.Qᵀ := by
  ext i j
  fin_cases i <;> fin_cases j <;> simp [flip, Quat.toMat, mirror, Matrix.mul_apply, Fin.sum_univ_three] <;> ring

theorem flip_orMat (q : Quat ℝ) : orMat (flip q) = mirror.Q * orMat q * mirror.Qᵀ := by
  unfold orMat
  rw [flip_normalized, flip_toMat]

theorem flip_mul (a b : Quat ℝ) : flip (a.mul b) = (flip a).mul (flip b) := by
  simp only [flip, LinearMap.coe_mk, AddHom.coe_mk, Quat.mul, Quat.mk.injEq]
  refine ⟨?_, ?_, ?_, ?_⟩ <;> ring

theorem flip_one : flip Quat.one = Quat.one := by
  simp [flip, Quat.one]

theorem flip_rate (w : V) (q : Quat ℝ) : quatRate (axialV mirror w) (flip q) = flip (quatRate w q) := by
  unfold quatRate
  have e : flip ((Quat.mul ⟨0, w 0, w 1, w 2⟩ q).smul (1 / 2)) = (flip (Quat.mul ⟨0, w 0, w 1, w 2⟩ q)).smul (1 / 2) :=
    map_smul flip (1 / 2 : ℝ) (Quat.mul ⟨0, w 0, w 1, w 2⟩ q)
  rw [e, flip_mul, axial_mirror]
  congr 2
  simp [flip, mirror, mulVec, dotProduct, Fin.sum_univ_three]

theorem flip_euler (a : V) : euler2Quat (axialV mirror a) = flip (euler2Quat a) := by
  have h0 : axialV mirror a 0 = -a 0 := by
    rw [axial_mirror]
    simp [mirror, mulVec, dotProduct, Fin.sum_univ_three]
  have h1 : axialV mirror a 1 = a 1 := by
    rw [axial_mirror]
    simp [mirror, mulVec, dotProduct, Fin.sum_univ_three]
  have h2 : axialV mirror a 2 = -a 2 := by
    rw [axial_mirror]
    simp [mirror, mulVec, dotProduct, Fin.sum_univ_three]
  unfold euler2Quat
  rw [h0, h1, h2, flip_mul, flip_mul]
  have k0 : angleAxis (-a 0) .X = flip (angleAxis (a 0) .X) := by
    simp [flip, angleAxis, neg_div]
  have k1 : angleAxis (a 1) .Y = flip (angleAxis (a 1) .Y) := by
    simp [flip, angleAxis]
  have k2 : angleAxis (-a 2) .Z = flip (angleAxis (a 2) .Z) := by
    simp [flip, angleAxis, neg_div]
  rw [k0, ← k1, k2]

theorem solve_axial (x : V × V × M6 ℝ) : Gear.solve (loadS mirror x) = (mirror.Q *ᵥ (Gear.solve x).1, axialV mirror (Gear.solve x).2) := by
  unfold Gear.solve loadS
  dsimp only
  rw [inv6_axial, massS_mulVec]
  rfl

theorem solvePin_axial (x : V × V × M6 ℝ) (a : V) : Gear.solvePin (loadS mirror x) (mirror.Q *ᵥ a) = axialV mirror (Gear.solvePin x a) := by
  unfold Gear.solvePin loadS
  dsimp only
  rw [massS_eq, toBlocks_fromBlocks₂₂, toBlocks_fromBlocks₂₁]
  unfold axialV
  rw [← solve_turn, ← mulVec_smul (mirror.Q * _ * _)⁻¹]
  congr 1
  rw [mulVec_sub, smul_sub, smul_mulVec, mulVec_mulVec, mul_assoc (mirror.Q * _), mirror.orth, mul_one, ← mulVec_mulVec]

theorem getD_axial (x : Option (V × V)) :
    ((x.map fun x => (mirror.Q *ᵥ x.1, axialV mirror x.2)).getD 0) = (mirror.Q *ᵥ (x.getD 0).1, axialV mirror (x.getD 0).2) := by
  cases x <;> simp [Prod.zero_eq_mk, axialV_zero]

theorem getD_axial1 (x : Option V) : ((x.map (axialV mirror)).getD 0) = axialV mirror (x.getD 0) := by
  cases x <;> simp [axialV_zero]

theorem mirror_rodA (F : RodOut) :
    Gear.rodA ((inMirror d).rod F) = ((inMirror d).acc (Gear.rodA F).1, (inMirror d).spinAcc (Gear.rodA F).2) := by
  unfold Gear.rodA
  rw [mirror_acc, mirror_spinAcc, ← getD_axial]
  show (Option.map _ (Option.map _ (F.about (back mirror d (mirror.Q *ᵥ F.rA + d)) (axialV mirror 0)))).getD 0 = _
  rw [back_place, axialV_zero, Option.map_map, Option.map_map]
  congr 2
  funext x
  show (if F.N = 0 then _ else _) = (_, _)
  simp only [Function.comp_apply]
  by_cases h : F.N = 0
  · rw [if_pos h, if_pos h, axialV_zero]
    congr 1
    unfold loadS
    dsimp only
    rw [massS_eq, toBlocks_fromBlocks₁₁, solve_turn]
  · rw [if_neg h, if_neg h, solve_axial]

theorem mirror_pinA (F : RodOut) (a : V) :
    Gear.pinA ((inMirror d).rod F) ((inMirror d).acc a) = (inMirror d).spinAcc (Gear.pinA F a) := by
  unfold Gear.pinA
  rw [mirror_acc, mirror_spinAcc, ← getD_axial1]
  show (Option.map _ (Option.map _ (F.about (back mirror d (mirror.Q *ᵥ F.rA + d)) (axialV mirror 0)))).getD 0 = _
  rw [back_place, axialV_zero, Option.map_map, Option.map_map]
  congr 2
  funext x
  exact solvePin_axial x a

theorem mirror_env (hd : d 2 = 0) (wt : ℕ → Water) :
    Seen mirror d (G.around wt) ((G.mirrored d).around fun j => (inMirror d).water (wt j)) :=
  seen_env mirror d Quat.one G hd wt

theorem mirror_rodF (hd : d 2 = 0) (i : ℕ) (q q' : Quat ℝ) (w a : V) (r rd : ℕ → V) (wt : ℕ → Water)
    (lA lB : List (LineOut × EndPt)) :
    (G.mirrored d).rodF i q' ((inMirror d).spin w) ((inMirror d).R *ᵥ a) (fun j => (inMirror d).place (r j))
      (fun j => (inMirror d).vel (rd j)) (fun j => (inMirror d).water (wt j)) (lA.map (inMirror d).got)
      (lB.map (inMirror d).got) = (inMirror d).rod (G.rodF i q w a r rd wt lA lB) := by
  have hs := mirror_env d G hd wt
  unfold Gear.rodF
  show RodOut.mk _ _ _ = RodOut.mk _ _ _
  rw [RodOut.mk.injEq]
  refine ⟨rfl, mirror_place d _, ?_⟩
  funext x w'
  dsimp only
  have hg : ∀ l : List (LineOut × EndPt), ((l.map (inMirror d).got).mapM fun a : LineOut × EndPt => a.1.stuff a.2) =
      (l.mapM fun a : LineOut × EndPt => a.1.stuff a.2).map (List.map (stuff mirror)) := fun l => seen_given mirror d Quat.one l
  rw [hg, hg, mirror_spin, mirror_place, mirror_vel]
  cases lA.mapM fun a : LineOut × EndPt => a.1.stuff a.2 with
  | none => rfl
  | some xA =>
    cases lB.mapM fun a : LineOut × EndPt => a.1.stuff a.2 with
    | none => rfl
    | some xB =>
      have := rodS_any mirror d { G.rod i with r0 := r 0, q := a, vA := rd 0, w := w, attachedA := [xA.sum], attachedB := [xB.sum] } hs
        (fun a ha => mirror_angles d _ ha) (back mirror d x) (axialV mirror w')
      rw [place_back, axial_twice] at this
      simp only [Option.map_some, Option.bind_eq_bind, Option.bind_some, stuff_sum]
      refine Eq.trans ?_ this
      congr 1
      unfold rodS rod
      dsimp only
      rw [mulVec_smul]
      rfl

theorem mirror_bodyF (b : ℕ) (x : V) (q q' : Quat ℝ) (v w : V) (m : M3 ℝ) (wt : Water) (lP : List (V × Option Bodies.Point))
    (lR : List (V × V × RodOut)) :
    (G.mirrored d).bodyF b ((inMirror d).place x) q' ((inMirror d).vel v) ((inMirror d).spin w) (mirror.Q * m * mirror.Qᵀ)
      ((inMirror d).water wt) (lP.map fun a => ((inMirror d).place a.1, (inMirror d).point a.2))
      (lR.map fun a => ((inMirror d).place a.1, (inMirror d).vel a.2.1, (inMirror d).rod a.2.2)) =
    (inMirror d).body (G.bodyF b x q v w m wt lP lR) := by
  unfold Gear.bodyF
  dsimp only
  rw [mirror_place, mirror_vel, mirror_spin]
  simp only [mirror_place, mirror_vel]
  have h1 : ((lP.map fun a => (mirror.Q *ᵥ a.1 + d, (inMirror d).point a.2)).mapM fun a : V × Option Bodies.Point =>
        a.2.map fun p => { p with r := a.1 }.getNetForceAndMass (G.mirrored d).env.rho_w (G.mirrored d).env.g (mirror.Q *ᵥ x + d) (axialV mirror w)) =
      (lP.mapM fun a : V × Option Bodies.Point => a.2.map fun p => { p with r := a.1 }.getNetForceAndMass G.env.rho_w G.env.g x w).map
        (List.map (loadS mirror)) := by
    refine mapM_turn _ _ _ _ lP fun a => ?_
    show Option.map _ (Option.map _ a.2) = _
    rw [Option.map_map, Option.map_map]
    congr 1
    funext q
    exact body_point_axial mirror d { q with r := a.1 } _ _ _ _
  have h2 : ((lR.map fun a => (mirror.Q *ᵥ a.1 + d, mirror.Q *ᵥ a.2.1, (inMirror d).rod a.2.2)).mapM fun a : V × V × RodOut =>
        a.2.2.about (mirror.Q *ᵥ x + d) (axialV mirror w)) = (lR.mapM fun a : V × V × RodOut => a.2.2.about x w).map (List.map (loadS mirror)) := by
    refine mapM_turn _ _ _ _ lR fun a => ?_
    show Option.map _ (a.2.2.about (back mirror d (mirror.Q *ᵥ x + d)) (axialV mirror (axialV mirror w))) = _
    rw [back_place, axial_twice]
  rw [h1, h2]
  have e1 := bodyS_ownF d ({ G.body b with pos := x, OrMat := m, v := v, w := w, U := wt.2.1 } : Bodies.Body) G.env.rho_w G.env.g
  have e2 := bodyS_ownM d ({ G.body b with pos := x, OrMat := m, v := v, w := w, U := wt.2.1 } : Bodies.Body) G.env.rho_w
  generalize (lP.mapM fun a : V × Option Bodies.Point => a.2.map fun p => { p with r := a.1 }.getNetForceAndMass G.env.rho_w G.env.g x w) = yP
  generalize (lR.mapM fun a : V × V × RodOut => a.2.2.about x w) = yR
  cases yP with
  | none => rfl
  | some yP =>
    cases yR with
    | none => rfl
    | some yR =>
      show some _ = some _
      congr 1
      rw [← addAll_axial mirror, ← addAll_axial mirror]
      congr 2
      have e3 := congrArg Prod.fst e1
      have e4 := congrArg Prod.snd e1
      exact Prod.ext e3 (Prod.ext e4 e2)

theorem mirror_similar (hd : d 2 = 0) (hr : ∀ b, ∀ a ∈ G.rods b, a.1 < G.nr) (hG : G.Trimmed) :
    Similar (inMirror d) G.code (G.mirrored d).code where
  len := one_pos
  tim := one_pos
  hand := by
    show (-1 : ℝ) * -1 = 1
    norm_num
  cross a b := by
    show (mirror.Q *ᵥ a) ⨯₃ (mirror.Q *ᵥ b) = (-1 : ℝ) • (mirror.Q *ᵥ (a ⨯₃ b))
    rw [cross mirror, mirror_det]
  nb := rfl
  nr := rfl
  np := rfl
  nl := rfl
  bkind := rfl
  rkind := rfl
  pkind := rfl
  pts b := by
    show (G.pts (some b)).map _ = (G.pts (some b)).map fun a => (a.1, (1 : ℝ) • (mirror.Q *ᵥ a.2))
    simp only [one_smul]
  rods b := by
    show (G.rods (some b)).map _ = (G.rods (some b)).map fun a => (a.1, (1 : ℝ) • (mirror.Q *ᵥ a.2.1), mirror.Q *ᵥ a.2.2)
    simp only [one_smul]
  groundPts := by
    simp only [mirror_place]
    rfl
  groundRods := by
    simp only [mirror_place]
    rfl
  ends := rfl
  endsA := rfl
  endsB := rfl
  rodN := rfl
  rodLen i := by
    show (G.rod i).UnstrLen = 1 * (G.rod i).UnstrLen
    rw [one_mul]
  lineN := rfl
  there := hr
  mat i q _ := by
    show orMat (flip q) *ᵥ (mirror.Q *ᵥ G.q0 i) = mirror.Q *ᵥ (orMat q *ᵥ G.q0 i)
    rw [flip_orMat, mulVec_mulVec, mul_assoc, mirror.orth, mul_one, mulVec_mulVec]
  orth _ := mirror.orth
  matB _ q _ := flip_orMat q
  posed x := trivial
  between b a ha hfix q _ := by
    show orMat ((Rods.fromTwoVectors (mirror.Q *ᵥ G.q0 a.1) (mirror.Q *ᵥ (orMat q *ᵥ a.2.2))).getD
        (G.half (mirror.Q *ᵥ G.q0 a.1) (mirror.Q *ᵥ (orMat q *ᵥ a.2.2)))) *ᵥ (mirror.Q *ᵥ G.q0 a.1) =
      mirror.Q *ᵥ (orMat ((Rods.fromTwoVectors (G.q0 a.1) (orMat q *ᵥ a.2.2)).getD (G.half (G.q0 a.1) (orMat q *ᵥ a.2.2))) *ᵥ G.q0 a.1)
    obtain ⟨g1, g2⟩ := hG.axes b a ha hfix
    have g3 : (orMat q *ᵥ a.2.2) ⬝ᵥ (orMat q *ᵥ a.2.2) = 1 := by rw [orMat_dot', g2]
    rw [trim_unit G hG g1 g3, trim_unit G hG (by rw [dot, g1]) (by rw [dot, g3])]
  one i hi h0 := ⟨flip_one.symm, trivial⟩
  ground := by
    have e : orMat (euler2Quat 0) = 1 := by rw [euler2Quat_zero]; exact Rods.orMat_one
    exact ⟨rfl, e, rfl, e⟩
  sea t x := by
    show waterSeen mirror (G.kin (1 * t) (back mirror d ((inMirror d).place x))) = waterSeen mirror (G.kin t x)
    rw [one_mul, mirror_place, back_place]
  moment k s F a e := by
    rw [mirror_shape]
    exact seen_moment mirror d Quat.one G k s F a e
  unit v := by
    show Mooring.normalize ((1 : ℝ) • (mirror.Q *ᵥ v)) = _
    rw [one_smul, normalize_turn]
    rfl
  lineF k s wt := by
    rw [mirror_shape]
    have := seen_lineF mirror d Quat.one G hd k s wt
    simp only [view_acc] at this
    simp only [mirror_acc]
    exact this
  pointF i x v w l := by
    have := seen_pointF mirror d Quat.one G i x v w l
    rw [view_place, view_vel] at this
    rw [mirror_place, mirror_vel]
    exact this
  pointA F := by
    have := seen_pointA mirror d Quat.one G F
    rw [view_acc] at this
    rw [mirror_acc]
    exact this
  rodF i hi q q' w a r rd wt lA lB _ _ := mirror_rodF d G hd i q q' w a r rd wt lA lB
  rodA := mirror_rodA d
  pinA := mirror_pinA d
  quatA w q := by
    rw [mirror_spin]
    show quatRate (axialV mirror w) (flip q) = ((1 : ℝ) / 1) • flip (quatRate w q)
    rw [div_one, one_smul, flip_rate]
  quatB b w q := by
    rw [mirror_spin]
    show quatRate (axialV mirror w) (flip q) = ((1 : ℝ) / 1) • flip (quatRate w q)
    rw [div_one, one_smul, flip_rate]
  bodyF b x q v w m wt lP lR := mirror_bodyF d G b x q (flip q) v w m wt lP lR
  bodyA F := by
    show ((F.map (loadS mirror)).map Gear.solve).getD 0 = _
    rw [mirror_acc, mirror_spinAcc]
    show _ = (mirror.Q *ᵥ ((F.map Gear.solve).getD 0).1, axialV mirror ((F.map Gear.solve).getD 0).2)
    rw [← getD_axial, Option.map_map, Option.map_map]
    congr 2
    funext x
    exact solve_axial x
  bodyPinA F a := by
    show ((F.map (loadS mirror)).map fun x => Gear.solvePin x ((inMirror d).acc a)).getD 0 = _
    rw [mirror_acc, mirror_spinAcc]
    show _ = axialV mirror ((F.map fun x => Gear.solvePin x a).getD 0)
    rw [← getD_axial1, Option.map_map, Option.map_map]
    congr 2
    funext x
    exact solvePin_axial x a

theorem axialV_smul (c : ℝ) (v : V) : axialV mirror (c • v) = c • axialV mirror v := by
  rw [axial_mirror, axial_mirror, mulVec_smul, smul_neg]

theorem mirror_each (relax : ℕ → ℕ → ℝ) : EachSame (inMirror d) (Each.code G.code.pose relax) := by
  have ht0 : (inMirror d).tim ≠ 0 := one_ne_zero
  have hT : ∀ T, (inMirror d).Turns T → T = flip := by
    rintro T (rfl | ⟨b, rfl⟩) <;> rfl
  have r1 : ∀ x, (inMirror d).rate x = (mirror.Q *ᵥ x.1, mirror.Q *ᵥ x.2) := by
    intro x
    unfold View.rate
    rw [mirror_vel, mirror_acc]
  have r6 : ∀ x, (inMirror d).rate6 flip x = ((mirror.Q *ᵥ x.1.1, flip x.1.2), (mirror.Q *ᵥ x.2.1, axialV mirror x.2.2)) := by
    intro x
    unfold View.rate6
    rw [mirror_vel, mirror_acc, mirror_spinAcc]
    show ((_, ((1 : ℝ) / 1) • _), _) = _
    rw [div_one, one_smul]
  have t1 : ∀ h, (inMirror d).tim * h = h := one_mul
  have pose : ∀ c a b : ℝ, ∀ x y : V × V, G.code.pose (c • (a • (mirror.Q *ᵥ x.1, axialV mirror x.2) + b • (mirror.Q *ᵥ y.1, axialV mirror y.2))) =
      (mirror.Q *ᵥ (G.code.pose (c • (a • x + b • y))).1, flip (G.code.pose (c • (a • x + b • y))).2) := by
    intro c a b x y
    show (c • (a • (mirror.Q *ᵥ x.1) + b • (mirror.Q *ᵥ y.1)), euler2Quat (c • (a • axialV mirror x.2 + b • axialV mirror y.2))) =
      (mirror.Q *ᵥ (c • (a • x.1 + b • y.1)), flip (euler2Quat (c • (a • x.2 + b • y.2))))
    rw [← flip_euler]
    simp only [mulVec_smul, mulVec_add, axialV_smul, axialV_add]
  refine ⟨?_, ?_, ?_, ?_, fun x y z => place_move_neg ht0 z x y, fun T _ x y z => state6_move ht0 T z x y⟩
  · intro g b x y h
    rw [r1, r1, r1, t1]
    simp [Each.code, mulVec_add, mulVec_smul]
  · intro T hT' g b x y h
    rw [hT T hT', r6, r6, r6, t1]
    show ((_, _) + G.code.pose (h • ((1 / 2 - b) • (_, _) + b • (_, _))), _) = _
    rw [pose]
    refine Prod.ext (Prod.ext ?_ ?_) (Prod.ext ?_ ?_)
    · exact (mulVec_add mirror.Q _ _).symm
    · exact (map_add flip _ _).symm
    · simp [Each.code, mulVec_add, mulVec_smul]
    · simp [Each.code, axialV_add, axialV_smul]
  · intro x y ta h
    rw [r1, r1, r1, t1, t1]
    simp [Each.code, mulVec_add, mulVec_smul]
  · intro T hT' x y ta h
    rw [hT T hT', r6, r6, r6, t1, t1]
    show ((_, _) + G.code.pose ((1 / 2 * h) • ((1 - 1 / 3 * (ta / h)) • (_, _) + (1 / 3 * (ta / h)) • (_, _))), _) = _
    rw [pose]
    refine Prod.ext (Prod.ext ?_ ?_) (Prod.ext ?_ ?_)
    · exact (mulVec_add mirror.Q _ _).symm
    · exact (map_add flip _ _).symm
    · simp [Each.code, mulVec_add, mulVec_smul]
    · simp [Each.code, axialV_add, axialV_smul]

theorem mirror_course (T : Quat ℝ →ₗ[ℝ] Quat ℝ) (hT : T = flip) (x : (V × V) × (V × V)) :
    SameCourse (inMirror d) G.code (G.mirrored d).code T x (poseMirrored d x.1, ratesMirrored x.2) := by
  subst hT
  refine ⟨fun t => Prod.ext ?_ ?_, (mirror_vel d _).symm, ?_⟩
  · show mirror.Q *ᵥ x.1.1 + d + (1 * t) • (mirror.Q *ᵥ x.2.1) = (inMirror d).place (x.1.1 + t • x.2.1)
    rw [mirror_place, one_mul, mulVec_add, mulVec_smul]
    abel
  · show euler2Quat (-(mirror.Q *ᵥ x.1.2) + (1 * t) • -(mirror.Q *ᵥ x.2.2)) = flip (euler2Quat (x.1.2 + t • x.2.2))
    rw [← flip_euler, axial_mirror, one_mul, mulVec_add, mulVec_smul, neg_add, smul_neg]
  · show -(mirror.Q *ᵥ x.2.2) = _
    rw [mirror_spin, axial_mirror]

theorem mirror_asked (x : Asked) : ViewAsked (inMirror d) G.code (G.mirrored d).code x (x.mirrored d) where
  dt := (one_mul _).symm
  body b _ _ := mirror_course d G _ rfl _
  bodyPin b _ _ := ⟨(mirror_place d _).symm, (mirror_vel d _).symm⟩
  rod i _ _ := mirror_course d G _ rfl _
  rodPin i _ _ := ⟨(mirror_place d _).symm, (mirror_vel d _).symm⟩
  point i _ _ := Prod.ext (mirror_place d _).symm (mirror_vel d _).symm

theorem mirror_rates (x : V × V) : ratesMirrored x = ((inMirror d).acc x.1, (inMirror d).spinAcc x.2) := by
  unfold ratesMirrored
  rw [mirror_acc, mirror_spinAcc, axial_mirror]

theorem mirror_mem (m : GearMem) (hm : IsGround m.ground) : ViewMem (inMirror d) G.code (G.mirrored d).code m (memMirrored d m) where
  t := (one_mul _).symm
  line k := ⟨rfl, rfl⟩
  point i := ⟨(mirror_place d _).symm, (mirror_vel d _).symm, fun _ => Prod.ext (mirror_place d _).symm (mirror_vel d _).symm, rfl⟩
  rod i := {
    pos := (mirror_place d _).symm
    quat := ⟨by
      show orMat (flip _) *ᵥ (mirror.Q *ᵥ G.q0 i) = mirror.Q *ᵥ (orMat _ *ᵥ G.q0 i)
      rw [flip_orMat, mulVec_mulVec, mul_assoc, mirror.orth, mul_one, mulVec_mulVec], fun _ => rfl⟩
    vel := (mirror_vel d _).symm
    w := ((mirror_spin d _).trans (axial_mirror _)).symm
    q := rfl
    r := fun j => (mirror_place d _).symm
    rd := fun j => (mirror_vel d _).symm
    acc := mirror_rates d _
    ves := fun _ => ⟨mirror_course d G _ rfl ((m.rod i).ves.1, (m.rod i).ves.2.1), mirror_rates d _⟩
    heads := fun _ => ⟨⟨(mirror_place d _).symm, (mirror_vel d _).symm⟩, (mirror_acc d _).symm⟩
    F := rfl }
  body b := {
    pos := (mirror_place d _).symm
    quat := rfl
    vel := (mirror_vel d _).symm
    w := ((mirror_spin d _).trans (axial_mirror _)).symm
    orMat := rfl
    acc := mirror_rates d _
    ves := fun _ => ⟨mirror_course d G _ rfl ((m.body b).ves.1, (m.body b).ves.2.1), mirror_rates d _⟩
    heads := fun _ => ⟨⟨(mirror_place d _).symm, (mirror_vel d _).symm⟩, (mirror_acc d _).symm⟩
    F := rfl }
  ground := hm
  ground' := hm

theorem mirror_sim (s : Time.Sim ℝ (State (Quat ℝ)) GearMem) (hm : IsGround s.m.ground) :
    ViewSim (inMirror d) G.code (G.mirrored d).code s (simMirrored d s) where
  t := (one_mul _).symm
  tl := (one_mul _).symm
  n := rfl
  r := ⟨fun k _ j _ => Prod.ext (mirror_place d _).symm (mirror_vel d _).symm, fun i _ _ => Prod.ext (mirror_place d _).symm (mirror_vel d _).symm,
    fun i _ _ => Prod.ext (Prod.ext (mirror_place d _).symm rfl) (Prod.ext (mirror_vel d _).symm ((mirror_spin d _).trans (axial_mirror _)).symm),
    fun i _ _ => Prod.ext (Prod.ext (mirror_place d _).symm rfl) (Prod.ext (mirror_vel d _).symm ((mirror_spin d _).trans (axial_mirror _)).symm)⟩
  rd k := by
    have e : ∀ q : Quat ℝ, ((1 : ℝ) / 1) • q = q := fun q => by rw [div_one, one_smul]
    exact ⟨fun k _ j _ => Prod.ext (mirror_vel d _).symm (mirror_acc d _).symm, fun i _ _ => Prod.ext (mirror_vel d _).symm (mirror_acc d _).symm,
      fun i _ _ => Prod.ext (Prod.ext (mirror_vel d _).symm (e _).symm) (mirror_rates d _),
      fun i _ _ => Prod.ext (Prod.ext (mirror_vel d _).symm (e _).symm) (mirror_rates d _)⟩
  m := mirror_mem d G s.m hm

theorem mirror_pts : ∃ f : Option ℕ → V → V, ∀ b, (G.mirrored d).pts b = (G.pts b).map fun a => (a.1, f b a.2) :=
  ⟨fun b v => b.elim (mirror.Q *ᵥ v + d) fun b => mirror.Q *ᵥ v, fun b => by cases b <;> rfl⟩

theorem mirror_rods : ∃ f : Option ℕ → V × V → V × V, ∀ b, (G.mirrored d).rods b = (G.rods b).map fun a => (a.1, f b a.2) :=
  ⟨fun b v => b.elim (mirror.Q *ᵥ v.1 + d, mirror.Q *ᵥ v.2) fun b => (mirror.Q *ᵥ v.1, mirror.Q *ᵥ v.2),
    fun b => by cases b <;> rfl⟩

theorem mirror_list (u : Holder) : u.list (G.mirrored d).code = u.list G.code := by
  cases u <;> rfl

theorem Gear.Rightly.mirrored (hG : G.Rightly) : (G.mirrored d).Rightly := by
  obtain ⟨f, hf⟩ := mirror_pts d G
  obtain ⟨g, hg⟩ := mirror_rods d G
  have hp : ∀ b, ∀ a ∈ (G.mirrored d).pts b, ∃ a' ∈ G.pts b, a = (a'.1, f b a'.2) := by
    intro b a ha
    rw [hf b, List.mem_map] at ha
    obtain ⟨a', h1, rfl⟩ := ha
    exact ⟨a', h1, rfl⟩
  have hr : ∀ b, ∀ a ∈ (G.mirrored d).rods b, ∃ a' ∈ G.rods b, a = (a'.1, g b a'.2) := by
    intro b a ha
    rw [hg b, List.mem_map] at ha
    obtain ⟨a', h1, rfl⟩ := ha
    exact ⟨a', h1, rfl⟩
  refine ⟨⟨?_, hG.sound.lineN, ?_, ?_, ?_, ?_, ?_, ?_, ?_⟩, hG.long, hG.held, ?_⟩
  · intro u u' a ha ha'
    rw [mirror_list] at ha ha'
    exact hG.sound.once u u' a ha ha'
  · intro b b' a ha a' ha' e
    obtain ⟨c, hc, rfl⟩ := hp b a ha
    obtain ⟨c', hc', rfl⟩ := hp b' a' ha'
    obtain ⟨rfl, rfl⟩ := hG.sound.pts b b' c hc c' hc' e
    exact ⟨rfl, rfl⟩
  · intro b b' a ha a' ha' e
    obtain ⟨c, hc, rfl⟩ := hr b a ha
    obtain ⟨c', hc', rfl⟩ := hr b' a' ha'
    obtain ⟨rfl, rfl⟩ := hG.sound.rods b b' c hc c' hc' e
    exact ⟨rfl, rfl⟩
  · intro b a ha
    obtain ⟨c, hc, rfl⟩ := hp b a ha
    exact hG.sound.ptsKind b c hc
  · intro b a ha
    obtain ⟨c, hc, rfl⟩ := hr b a ha
    exact hG.sound.rodsKind b c hc
  · intro b a ha
    obtain ⟨c, hc, rfl⟩ := hr b a ha
    exact hG.sound.rodsNum b c hc
  · intro b a ha
    obtain ⟨c, hc, rfl⟩ := hp b a ha
    exact hG.sound.ptsNum b c hc
  · rintro b (⟨a, ha⟩ | ⟨a, ha⟩)
    · obtain ⟨c, hc, -⟩ := hp (some b) a ha
      exact hG.sound.bodyNum b (.inl ⟨c, hc⟩)
    · obtain ⟨c, hc, -⟩ := hr (some b) a ha
      exact hG.sound.bodyNum b (.inr ⟨c, hc⟩)
  · intro u a ha
    rw [mirror_list] at ha
    exact hG.endsNum u a ha

end MD.Whole
