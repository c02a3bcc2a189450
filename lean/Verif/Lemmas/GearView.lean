import Verif.Spec.GearView
import Verif.Props.RodStart
import Verif.Props.Stationary

/-!
# The formulas of the code do not depend on the axes
-/

set_option linter.unusedSimpArgs false
set_option linter.unusedSectionVars false
set_option linter.unusedVariables false
set_option linter.unnecessarySeqFocus false

namespace MD.Whole

open MD.Mooring Matrix MD.Mat MD.Rot MD.Frame

variable (o : Turn) (d : V) (p : Quat ℝ) (G : Gear)

theorem back_place (x : V) : back o d (o.Q *ᵥ x + d) = x := by
  unfold back
  rw [add_sub_cancel_right, mulVec_mulVec, o.orth, one_mulVec]

theorem place_back (x : V) : o.Q *ᵥ back o d x + d = x := by
  unfold back
  rw [mulVec_mulVec, orth', one_mulVec, sub_add_cancel]

theorem turn_back (w : V) : o.Q *ᵥ (o.Qᵀ *ᵥ w) = w := by
  rw [mulVec_mulVec, orth', one_mulVec]

theorem view_place (x : V) : (seenFrom o d p).place x = o.Q *ᵥ x + d := by
  simp [View.place, seenFrom]

theorem view_vel (x : V) : (seenFrom o d p).vel x = o.Q *ᵥ x := by
  simp [View.vel, seenFrom]

theorem view_spin (x : V) : (seenFrom o d p).spin x = o.Q *ᵥ x := by
  simp [View.spin, seenFrom]

theorem view_acc (x : V) : (seenFrom o d p).acc x = o.Q *ᵥ x := by
  simp [View.acc, seenFrom]

theorem view_spinAcc (x : V) : (seenFrom o d p).spinAcc x = o.Q *ᵥ x := by
  simp [View.spinAcc, seenFrom]

theorem one_toMat : (Quat.one : Quat ℝ).toMat = 1 := by
  ext i j
  fin_cases i <;> fin_cases j <;> simp [Quat.toMat, Quat.one]

theorem one_mul_quat (q : Quat ℝ) : Quat.one.mul q = q := by
  simp [Quat.mul, Quat.one]

theorem normalized_mul {p q : Quat ℝ} (hp : p.normSq = 1) : (p.mul q).normalized = p.mul q.normalized := by
  unfold Quat.normalized
  rw [normSq_mul, hp, one_mul]
  split_ifs with h
  · simp only [Quat.mul, Quat.smul, Quat.mk.injEq]
    refine ⟨?_, ?_, ?_, ?_⟩ <;> ring
  · rfl

theorem orMat_mul {p q : Quat ℝ} (hp : p.normSq = 1) (hq : 0 < q.normSq) : orMat (p.mul q) = p.toMat * orMat q := by
  unfold orMat
  rw [normalized_mul hp, toMat_mul _ _ hp (normSq_normalized q hq)]

theorem seen_env (hd : d 2 = 0) (wt : ℕ → Water) :
    Seen o d (G.around wt) ((G.seenFrom o d).around fun j => (seenFrom o d p).water (wt j)) := by
  refine ⟨hd, rfl, rfl, rfl, rfl, rfl, rfl, rfl, fun x => ?_, fun _ => rfl, fun _ => rfl, fun _ => rfl, fun _ => rfl⟩
  have e : (![(o.Q *ᵥ x + d) 0, (o.Q *ᵥ x + d) 1, 0] : V) - d = o.Q *ᵥ (x - x 2 • ![0, 0, 1]) := by
    rw [mulVec_sub, mulVec_smul, o.up]
    have hz := z o x
    ext i
    fin_cases i <;> simp [hd, hz]
  show G.env.waterDepth _ _ = G.env.waterDepth _ _
  unfold back
  rw [e, mulVec_mulVec, o.orth, one_mulVec]
  simp

theorem seen_line (k : ℕ) (s : Shape) : (G.seenFrom o d).lineNow k ((seenFrom o d p).shape s) = line o d (G.lineNow k s) := by
  unfold Gear.lineNow line View.shape
  simp only [view_place, view_vel]
  rfl

theorem seen_stuff (L : Mooring.Line) {e e' : Env} (h : Seen o d e e') (a : EndPt) :
    getEndStuff (line o d L) e' a = (getEndStuff L e a).map (stuff o) := by
  unfold getEndStuff
  cases a with
  | TOP =>
    obtain ⟨h1, h2⟩ := C99_line o d L h L.N
    have e : (line o d L).N = L.N := rfl
    dsimp only
    rw [e, h1, h2]
    cases Fnet L _ L.N <;> simp [stuff]
  | BOTTOM =>
    obtain ⟨h1, h2⟩ := C99_line o d L h 0
    dsimp only
    rw [h1, h2]
    cases Fnet L _ 0 <;> simp [stuff]

theorem getD_turn (x : Option V) : ((x.map (o.Q *ᵥ ·)).getD 0) = o.Q *ᵥ (x.getD 0) := by
  cases x <;> simp

theorem seen_lineF (hd : d 2 = 0) (k : ℕ) (s : Shape) (wt : ℕ → Water) :
    (∀ j, ((G.seenFrom o d).lineF k ((seenFrom o d p).shape s) fun j => (seenFrom o d p).water (wt j)).1 j =
      (seenFrom o d p).acc ((G.lineF k s wt).1 j)) ∧
    ((G.seenFrom o d).lineF k ((seenFrom o d p).shape s) fun j => (seenFrom o d p).water (wt j)).2 =
      (seenFrom o d p).line (G.lineF k s wt).2 := by
  have hs := seen_env o d p G hd wt
  unfold Gear.lineF
  dsimp only
  rw [seen_line]
  refine ⟨fun j => ?_, ?_⟩
  · obtain ⟨h1, h2⟩ := C99_line o d (G.lineNow k s) hs j
    rw [h1, h2, getD_turn, solve_turn, view_acc]
  · show LineOut.mk _ _ = LineOut.mk _ _
    rw [LineOut.mk.injEq]
    refine ⟨funext fun a => seen_stuff o d _ hs a, funext fun a => ?_⟩
    cases a <;> exact line_Kurv o d _ _

theorem seen_moment (k : ℕ) (s : Shape) (F : LineOut) (a : EndPt) (e : REnd) :
    (G.seenFrom o d).moment k ((seenFrom o d p).shape s) ((seenFrom o d p).line F) a e =
      (seenFrom o d p).mom • ((seenFrom o d p).R *ᵥ G.moment k s F a e) := by
  show _ = (1 : ℝ) • (o.Q *ᵥ _)
  rw [one_smul]
  unfold Gear.moment
  rw [seen_line]
  have hc : ((seenFrom o d p).line F).curv = F.curv := rfl
  rw [hc, ← getD_turn]
  congr 1
  generalize G.lineNow k s = L
  generalize (match e with | .A => EndPt.BOTTOM | .B => EndPt.TOP) = e'
  unfold Rods.Zero.endSegmentMoment
  have h1 : Rods.Zero.endEI (line o d L) (F.curv a) = Rods.Zero.endEI L (F.curv a) := rfl
  rw [h1]
  cases Rods.Zero.endEI L (F.curv a) with
  | none => rfl
  | some EI =>
    simp only [Option.bind_eq_bind, Option.bind_some]
    cases a <;> dsimp only <;>
      [(have h2 := unit o d (L.r (L.N - 1)) (L.r L.N)); (have h2 := unit o d (L.r 0) (L.r 1))] <;>
      (simp only [line, h2]; split_ifs <;> simp [mulVec_smul])

theorem mapM_turn {α β γ : Type} (f : α → Option β) (g : γ → Option β) (u : α → γ) (w : β → β) (l : List α) (h : ∀ a, g (u a) = (f a).map w) :
    (l.map u).mapM g = (l.mapM f).map (List.map w) := by
  induction l with
  | nil => rfl
  | cons a l ih =>
    rw [List.map_cons, List.mapM_cons, List.mapM_cons, ih, h]
    cases f a with
    | none => rfl
    | some x =>
      cases l.mapM f with
      | none => rfl
      | some l => rfl

theorem seen_given (l : List (LineOut × EndPt)) : ((l.map (seenFrom o d p).got).mapM fun a : LineOut × EndPt => a.1.stuff a.2) =
    (l.mapM fun a : LineOut × EndPt => a.1.stuff a.2).map (List.map (stuff o)) :=
  mapM_turn _ _ _ _ l fun _ => rfl

theorem stuff_sum (l : List (V × V × M3 ℝ)) : (l.map (stuff o)).sum = stuff o l.sum := by
  induction l with
  | nil =>
    simp [stuff]
    rfl
  | cons a l ih =>
    rw [List.map_cons, List.sum_cons, ih, List.sum_cons]
    simp only [stuff, Prod.fst_add, Prod.snd_add, Prod.mk_add_mk, mulVec_add, Matrix.mul_add, Matrix.add_mul, smul_add]

theorem seen_pointF (i : ℕ) (x v : V) (w : Water) (l : List (LineOut × EndPt)) :
    (G.seenFrom o d).pointF i ((seenFrom o d p).place x) ((seenFrom o d p).vel v) ((seenFrom o d p).water w) (l.map (seenFrom o d p).got) =
      (seenFrom o d p).point (G.pointF i x v w l) := by
  unfold Gear.pointF
  rw [seen_given, view_place, view_vel]
  show _ = Option.map _ _
  rw [Option.map_map, Option.map_map]
  congr 1
  funext l
  simp only [Function.comp_apply, stuff_sum]
  rfl

theorem seen_pointA (F : Option Bodies.Point) :
    (G.seenFrom o d).pointA ((seenFrom o d p).point F) = (seenFrom o d p).acc (G.pointA F) := by
  unfold Gear.pointA
  rw [view_acc, ← getD_turn]
  show (Option.map _ (Option.map _ F)).getD 0 = _
  rw [Option.map_map, Option.map_map]
  congr 2
  funext q
  show ((point o d q).doRHS G.env.rho_w G.env.g).2⁻¹ *ᵥ ((point o d q).doRHS G.env.rho_w G.env.g).1 = _
  rw [C99_point, solve_turn]
  rfl

theorem inv6_turn (M : M6 ℝ) : (mass6 o M)⁻¹ = mass6 o M⁻¹ := by
  unfold mass6
  have e2 : (fromBlocks o.Q 0 0 o.Q)ᵀ * fromBlocks o.Q 0 0 o.Q = (1 : M6 ℝ) := by
    simp [fromBlocks_transpose, fromBlocks_multiply, o.orth]
  generalize fromBlocks o.Q 0 0 o.Q = A at *
  have e : Aᵀ = A⁻¹ := (inv_eq_left_inv e2).symm
  have hA : IsUnit A.det := by
    have := congrArg Matrix.det e2
    rw [Matrix.det_mul, Matrix.det_one, Matrix.det_transpose] at this
    exact IsUnit.of_mul_eq_one _ this
  rw [Matrix.mul_inv_rev, Matrix.mul_inv_rev, e, nonsing_inv_nonsing_inv _ hA, mul_assoc]

theorem solve_seen (x : V × V × M6 ℝ) : Gear.solve (Frame.load o x) = (o.Q *ᵥ (Gear.solve x).1, o.Q *ᵥ (Gear.solve x).2) := by
  unfold Gear.solve Frame.load
  dsimp only
  rw [inv6_turn, mass6_mulVec]
  rfl

theorem solvePin_seen (x : V × V × M6 ℝ) (a : V) : Gear.solvePin (Frame.load o x) (o.Q *ᵥ a) = o.Q *ᵥ Gear.solvePin x a := by
  unfold Gear.solvePin Frame.load
  dsimp only
  rw [mass6_eq, toBlocks_fromBlocks₂₂, toBlocks_fromBlocks₂₁, ← solve_turn]
  congr 1
  rw [mulVec_sub, mulVec_mulVec, mul_assoc (o.Q * _), o.orth, mul_one, ← mulVec_mulVec]

theorem getD_pair (x : Option (V × V)) :
    ((x.map fun x => (o.Q *ᵥ x.1, o.Q *ᵥ x.2)).getD 0) = (o.Q *ᵥ (x.getD 0).1, o.Q *ᵥ (x.getD 0).2) := by
  cases x <;> simp [Prod.zero_eq_mk]

theorem seen_rodA (F : RodOut) :
    Gear.rodA ((seenFrom o d p).rod F) = ((seenFrom o d p).acc (Gear.rodA F).1, (seenFrom o d p).spinAcc (Gear.rodA F).2) := by
  unfold Gear.rodA
  rw [view_acc, view_spinAcc, ← getD_pair]
  show (Option.map _ (Option.map _ (F.about (back o d (o.Q *ᵥ F.rA + d)) (o.Qᵀ *ᵥ 0)))).getD 0 = _
  rw [back_place, mulVec_zero, Option.map_map, Option.map_map]
  congr 2
  funext x
  show (if F.N = 0 then _ else _) = (_, _)
  simp only [Function.comp_apply]
  by_cases h : F.N = 0
  · rw [if_pos h, if_pos h, mulVec_zero]
    congr 1
    unfold Frame.load
    dsimp only
    rw [mass6_eq, toBlocks_fromBlocks₁₁, solve_turn]
  · rw [if_neg h, if_neg h, solve_seen]

theorem seen_pinA (F : RodOut) (a : V) :
    Gear.pinA ((seenFrom o d p).rod F) ((seenFrom o d p).acc a) = (seenFrom o d p).spinAcc (Gear.pinA F a) := by
  unfold Gear.pinA
  rw [view_acc, view_spinAcc, ← getD_turn]
  show (Option.map _ (Option.map _ (F.about (back o d (o.Q *ᵥ F.rA + d)) (o.Qᵀ *ᵥ 0)))).getD 0 = _
  rw [back_place, mulVec_zero, Option.map_map, Option.map_map]
  congr 2
  funext x
  exact solvePin_seen o x a

theorem seen_rodF (hp : o.Q.det = 1) (hd : d 2 = 0) (i : ℕ) (q q' : Quat ℝ) (w a : V) (r rd : ℕ → V) (wt : ℕ → Water)
    (lA lB : List (LineOut × EndPt)) (hf : o.Q = 1 ∨ Leans a) :
    (G.seenFrom o d).rodF i q' ((seenFrom o d p).spin w) ((seenFrom o d p).R *ᵥ a) (fun j => (seenFrom o d p).place (r j))
      (fun j => (seenFrom o d p).vel (rd j)) (fun j => (seenFrom o d p).water (wt j)) (lA.map (seenFrom o d p).got)
      (lB.map (seenFrom o d p).got) = (seenFrom o d p).rod (G.rodF i q w a r rd wt lA lB) := by
  have hs := seen_env o d p G hd wt
  unfold Gear.rodF
  show RodOut.mk _ _ _ = RodOut.mk _ _ _
  rw [RodOut.mk.injEq]
  refine ⟨rfl, view_place o d p _, ?_⟩
  funext x w'
  dsimp only
  rw [seen_given, seen_given, view_spin, view_place, view_vel]
  cases lA.mapM fun a : LineOut × EndPt => a.1.stuff a.2 with
  | none => rfl
  | some xA =>
    cases lB.mapM fun a : LineOut × EndPt => a.1.stuff a.2 with
    | none => rfl
    | some xB =>
      have := rod_any o d hp { G.rod i with r0 := r 0, q := a, vA := rd 0, w := w, attachedA := [xA.sum], attachedB := [xB.sum] } hs (fun _ => hf)
        (back o d x) (o.Qᵀ *ᵥ w')
      rw [place_back, turn_back] at this
      simp only [Option.map_some, Option.bind_eq_bind, Option.bind_some, stuff_sum]
      exact this

theorem seen_quatA (hp : o.Q.det = 1) (hu : p.normSq = 1) (hQ : p.toMat = o.Q) (w : V) (q : Quat ℝ) :
    quatRate (o.Q *ᵥ w) (p.mul q) = p.mul (quatRate w q) := by
  have key : (Quat.mk 0 ((o.Q *ᵥ w) 0) ((o.Q *ᵥ w) 1) ((o.Q *ᵥ w) 2)).mul p = p.mul ⟨0, w 0, w 1, w 2⟩ := by
    have e0 : (o.Q *ᵥ w) 0 = (1 - 2 * (p.y * p.y + p.z * p.z)) * w 0 + 2 * (p.y * p.x - p.z * p.w) * w 1 + 2 * (p.z * p.x + p.y * p.w) * w 2 := by
      rw [← hQ]
      simp [Quat.toMat, mulVec, dotProduct, Fin.sum_univ_three]
      ring
    have e1 : (o.Q *ᵥ w) 1 = 2 * (p.y * p.x + p.z * p.w) * w 0 + (1 - 2 * (p.x * p.x + p.z * p.z)) * w 1 + 2 * (p.z * p.y - p.x * p.w) * w 2 := by
      rw [← hQ]
      simp [Quat.toMat, mulVec, dotProduct, Fin.sum_univ_three]
      ring
    have e2 : (o.Q *ᵥ w) 2 = 2 * (p.z * p.x - p.y * p.w) * w 0 + 2 * (p.z * p.y + p.x * p.w) * w 1 + (1 - 2 * (p.x * p.x + p.y * p.y)) * w 2 := by
      rw [← hQ]
      simp [Quat.toMat, mulVec, dotProduct, Fin.sum_univ_three]
      ring
    simp only [Quat.normSq] at hu
    simp only [Quat.mul, Quat.mk.injEq, e0, e1, e2]
    refine ⟨?_, ?_, ?_, ?_⟩ <;> grobner
  have assoc : ∀ a b c : Quat ℝ, a.mul (b.mul c) = (a.mul b).mul c := by
    intro a b c
    simp only [Quat.mul, Quat.mk.injEq]
    refine ⟨?_, ?_, ?_, ?_⟩ <;> ring
  unfold quatRate
  rw [assoc, key, ← assoc]
  exact (map_smul (after p) (1 / 2 : ℝ) _).symm

theorem seen_bodyF (hp : o.Q.det = 1) (b : ℕ) (x : V) (q q' : Quat ℝ) (v w : V) (m : M3 ℝ) (wt : Water) (lP : List (V × Option Bodies.Point))
    (lR : List (V × V × RodOut)) :
    (G.seenFrom o d).bodyF b ((seenFrom o d p).place x) q' ((seenFrom o d p).vel v) ((seenFrom o d p).spin w) ((seenFrom o d p).R * m)
      ((seenFrom o d p).water wt) (lP.map fun a => ((seenFrom o d p).place a.1, (seenFrom o d p).point a.2))
      (lR.map fun a => ((seenFrom o d p).place a.1, (seenFrom o d p).vel a.2.1, (seenFrom o d p).rod a.2.2)) =
    (seenFrom o d p).body (G.bodyF b x q v w m wt lP lR) := by
  unfold Gear.bodyF
  dsimp only
  rw [view_place, view_vel, view_spin]
  simp only [view_place, view_vel]
  have h1 : ((lP.map fun a => (o.Q *ᵥ a.1 + d, (seenFrom o d p).point a.2)).mapM fun a : V × Option Bodies.Point =>
        a.2.map fun p => { p with r := a.1 }.getNetForceAndMass (G.seenFrom o d).env.rho_w (G.seenFrom o d).env.g (o.Q *ᵥ x + d) (o.Q *ᵥ w)) =
      (lP.mapM fun a : V × Option Bodies.Point => a.2.map fun p => { p with r := a.1 }.getNetForceAndMass G.env.rho_w G.env.g x w).map
        (List.map (Frame.load o)) := by
    refine mapM_turn _ _ _ _ lP fun a => ?_
    show Option.map _ (Option.map _ a.2) = _
    rw [Option.map_map, Option.map_map]
    congr 1
    funext q
    exact C99_body_point o d hp { q with r := a.1 } _ _ _ _
  have h2 : ((lR.map fun a => (o.Q *ᵥ a.1 + d, o.Q *ᵥ a.2.1, (seenFrom o d p).rod a.2.2)).mapM fun a : V × V × RodOut =>
        a.2.2.about (o.Q *ᵥ x + d) (o.Q *ᵥ w)) = (lR.mapM fun a : V × V × RodOut => a.2.2.about x w).map (List.map (Frame.load o)) := by
    refine mapM_turn _ _ _ _ lR fun a => ?_
    show Option.map _ (a.2.2.about (back o d (o.Q *ᵥ x + d)) (o.Qᵀ *ᵥ (o.Q *ᵥ w))) = _
    rw [back_place, mulVec_mulVec, o.orth, one_mulVec]
  rw [h1, h2]
  have e1 := body_ownF o d hp ({ G.body b with pos := x, OrMat := m, v := v, w := w, U := wt.2.1 } : Bodies.Body) G.env.rho_w G.env.g
  have e2 := body_ownM o d hp ({ G.body b with pos := x, OrMat := m, v := v, w := w, U := wt.2.1 } : Bodies.Body) G.env.rho_w
  generalize (lP.mapM fun a : V × Option Bodies.Point => a.2.map fun p => { p with r := a.1 }.getNetForceAndMass G.env.rho_w G.env.g x w) = yP
  generalize (lR.mapM fun a : V × V × RodOut => a.2.2.about x w) = yR
  cases yP with
  | none => rfl
  | some yP =>
    cases yR with
    | none => rfl
    | some yR =>
      show some _ = some _
      congr 1
      rw [← addAll_turn o hp, ← addAll_turn o hp]
      congr 2
      have e3 := congrArg Prod.fst e1
      have e4 := congrArg Prod.snd e1
      exact Prod.ext e3 (Prod.ext e4 e2)

theorem orMat_dot {q : Quat ℝ} (h : 0 < q.normSq) (a : V) : (orMat q *ᵥ a) ⬝ᵥ (orMat q *ᵥ a) = a ⬝ᵥ a := by
  have h1 := toMat_mul_transpose q.normalized (normSq_normalized q h)
  have h2 : (orMat q)ᵀ * orMat q = 1 := mul_eq_one_comm.1 h1
  rw [dotProduct_mulVec, vecMul_mulVec, h2, vecMul_one]

theorem between_unit (hG : G.Rigged) {b : Option ℕ} {a : ℕ × V × V} (ha : a ∈ G.rods b) (hfix : G.rkind a.1 = .FIXED) {v : V} (hv : v ⬝ᵥ v = 1) :
    orMat ((Rods.fromTwoVectors (G.q0 a.1) v).getD (G.half (G.q0 a.1) v)) *ᵥ G.q0 a.1 = v := by
  cases h : Rods.fromTwoVectors (G.q0 a.1) v with
  | none => exact hG.half b a ha hfix v hv h
  | some q => exact Rods.rotates (hG.axes b a ha hfix).1 hv h

theorem seen_mat (hu : p.normSq = 1) (hQ : p.toMat = o.Q) (q : Quat ℝ) (hq : (seenFrom o d p).ok q) : orMat (p.mul q) = o.Q * orMat q := by
  rcases hq with rfl | hq
  · rw [one_mul_quat, ← hQ, one_toMat, one_mul]
  · rw [orMat_mul hu hq, hQ]

theorem code_similar (hp : o.Q.det = 1) (hu : p.normSq = 1) (hQ : p.toMat = o.Q) (hd : d 2 = 0) (hr : ∀ b, ∀ a ∈ G.rods b, a.1 < G.nr)
    (hk : p = Quat.one ∨ G.Rigged) :
    Similar (seenFrom o d p) G.code (G.seenFrom o d).code where
  len := one_pos
  tim := one_pos
  hand := one_mul 1
  cross a b := (cross1 o hp a b).trans (one_smul ℝ _).symm
  nb := rfl
  nr := rfl
  np := rfl
  nl := rfl
  bkind := rfl
  rkind := rfl
  pkind := rfl
  pts b := by
    show G.pts (some b) = (G.pts (some b)).map fun a => (a.1, (1 : ℝ) • ((1 : M3 ℝ) *ᵥ a.2))
    simp
  rods b := by
    show G.rods (some b) = (G.rods (some b)).map fun a => (a.1, (1 : ℝ) • ((1 : M3 ℝ) *ᵥ a.2.1), (1 : M3 ℝ) *ᵥ a.2.2)
    simp
  groundPts := by
    simp only [view_place]
    rfl
  groundRods := by
    simp only [view_place]
    rfl
  ends := rfl
  endsA := rfl
  endsB := rfl
  rodN := rfl
  rodLen i := by
    show (G.rod i).UnstrLen = 1 * (G.rod i).UnstrLen
    rw [one_mul]
  lineN := rfl
  there := hr
  mat i q hq := by
    show orMat (p.mul q) *ᵥ _ = o.Q *ᵥ (orMat q *ᵥ _)
    rw [seen_mat o d p hu hQ q hq, mulVec_mulVec]
    rfl
  orth _ := by
    show (1 : M3 ℝ)ᵀ * 1 = 1
    rw [transpose_one, one_mul]
  matB _ q hq := by
    show _ = o.Q * orMat q * (1 : M3 ℝ)ᵀ
    rw [transpose_one, mul_one]
    exact seen_mat o d p hu hQ q hq
  posed x := .inr (by show 0 < (euler2Quat x.2).normSq; rw [euler2Quat_normSq]; exact one_pos)
  between b a ha hfix q hq := by
    show orMat ((Rods.fromTwoVectors (G.q0 a.1) (o.Q *ᵥ (orMat q *ᵥ a.2.2))).getD (G.half (G.q0 a.1) (o.Q *ᵥ (orMat q *ᵥ a.2.2)))) *ᵥ G.q0 a.1 =
      o.Q *ᵥ (orMat ((Rods.fromTwoVectors (G.q0 a.1) (orMat q *ᵥ a.2.2)).getD (G.half (G.q0 a.1) (orMat q *ᵥ a.2.2))) *ᵥ G.q0 a.1)
    have key : p = Quat.one → o.Q = 1 := by
      rintro rfl
      rw [← hQ, one_toMat]
    by_cases h1 : p = Quat.one
    · rw [key h1, one_mulVec, one_mulVec]
    · have hG := hk.resolve_left h1
      obtain ⟨g1, g2⟩ := hG.axes b a ha hfix
      have g3 : (orMat q *ᵥ a.2.2) ⬝ᵥ (orMat q *ᵥ a.2.2) = 1 := by rw [orMat_dot (hq.resolve_left h1), g2]
      rw [between_unit G hG ha hfix g3, between_unit G hG ha hfix (by rw [dot, g3])]
  one i hi h0 := by
    rcases hk with rfl | hk
    · exact ⟨(one_mul_quat _).symm, .inl rfl⟩
    · exact absurd h0 (hk.long i hi)
  ground := by
    have e : orMat (euler2Quat 0) = 1 := by rw [euler2Quat_zero]; exact Rods.orMat_one
    exact ⟨rfl, e, rfl, e⟩
  sea t x := by
    show waterSeen o (G.kin (1 * t) (back o d ((seenFrom o d p).place x))) = waterSeen o (G.kin t x)
    rw [one_mul, view_place, back_place]
  moment := seen_moment o d p G
  unit v := by
    show Mooring.normalize ((1 : ℝ) • (o.Q *ᵥ v)) = _
    rw [one_smul, normalize_turn]
    rfl
  lineF := seen_lineF o d p G hd
  pointF := seen_pointF o d p G
  pointA := seen_pointA o d p G
  rodF i hi q q' w a r rd wt lA lB _ hf := seen_rodF o d p G hp hd i q q' w a r rd wt lA lB
    (hf.imp_left fun h => by rw [← hQ, h, one_toMat])
  rodA := seen_rodA o d p
  pinA := seen_pinA o d p
  quatA w q := by
    rw [view_spin]
    show quatRate (o.Q *ᵥ w) (p.mul q) = ((1 : ℝ) / 1) • p.mul (quatRate w q)
    rw [div_one, one_smul, seen_quatA o p hp hu hQ]
  quatB b w q := by
    rw [view_spin]
    show quatRate (o.Q *ᵥ w) (p.mul q) = ((1 : ℝ) / 1) • p.mul (quatRate w q)
    rw [div_one, one_smul, seen_quatA o p hp hu hQ]
  bodyF b x q v w m wt lP lR := by
    have e : (seenFrom o d p).R * m * ((seenFrom o d p).own b)ᵀ = (seenFrom o d p).R * m := by
      show _ * (1 : M3 ℝ)ᵀ = _
      rw [transpose_one, mul_one]
    rw [e]
    exact seen_bodyF o d p G hp b x q (after p q) v w m wt lP lR
  bodyA F := by
    show ((F.map (Frame.load o)).map Gear.solve).getD 0 = _
    rw [view_acc, view_spinAcc]
    show _ = (o.Q *ᵥ ((F.map Gear.solve).getD 0).1, o.Q *ᵥ ((F.map Gear.solve).getD 0).2)
    rw [← getD_pair, Option.map_map, Option.map_map]
    congr 2
    funext x
    exact solve_seen o x
  bodyPinA F a := by
    show ((F.map (Frame.load o)).map fun x => Gear.solvePin x ((seenFrom o d p).acc a)).getD 0 = _
    rw [view_acc, view_spinAcc]
    show _ = o.Q *ᵥ ((F.map fun x => Gear.solvePin x a).getD 0)
    rw [← getD_turn, Option.map_map, Option.map_map]
    congr 2
    funext x
    exact solvePin_seen o x a

end MD.Whole
