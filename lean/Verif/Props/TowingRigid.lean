import Verif.Props.Towing

/-!
# C107: rods and bodies towed through the water
-/

set_option linter.unusedSimpArgs false
set_option linter.unusedSectionVars false
set_option linter.unusedVariables false

namespace MD.Towing

open Matrix MD.Mat MD.Mooring MD.Bodies MD.Rods MD.Rot

/-! ## Specification -/

/-- The rod somewhere else (by `s`) and moving with `u` in addition. -/
noncomputable def towRod (s u : V) (R : Rod) : Rod := { R with r0 := R.r0 + s, vA := R.vA + u }

/-- The point somewhere else and moving with `u` in addition, as the water does. -/
noncomputable def towPoint (s u : V) (p : Point) : Point := { p with r := p.r + s, rd := p.rd + u, U := p.U + u }

/-- The body somewhere else and moving with `u` in addition, as the water does. -/
noncomputable def towBody (s u : V) (B : Body) : Body := { B with pos := B.pos + s, v := B.v + u, U := B.U + u }

/-- The water flows with `u` in addition over a bottom that is plane along `s`.  Rods do not rub on the bottom. -/
structure Stream (s u : V) (N : ℕ) (e e' : Env) : Prop where
  rho_w : e'.rho_w = e.rho_w
  g : e'.g = e.g
  kb : e'.kb = e.kb
  cb : e'.cb = e.cb
  depth : ∀ x y, e'.waterDepth (x + s 0) (y + s 1) = e.waterDepth x y
  zeta : ∀ j ≤ N, e'.zeta j = e.zeta j
  U : ∀ j ≤ N, e'.U j = e.U j + u
  Ud : ∀ j ≤ N, e'.Ud j = e.Ud j
  pdyn : ∀ j ≤ N, e'.pdyn j = e.pdyn j

/-! ## Rods -/

section rod
variable {s u : V} {R : Rod} {e e' : Env}

theorem t_N : (towRod s u R).N = R.N := rfl

theorem t_r (i : ℕ) : Rods.r (towRod s u R) i = Rods.r R i + s := by
  unfold Rods.r
  simp only [towRod]
  by_cases hN : R.N = 0
  · simp only [hN, if_true]
    split_ifs <;> module
  · simp only [hN, if_false]
    split_ifs <;> module

theorem t_rd (i : ℕ) : Rods.rd (towRod s u R) i = Rods.rd R i + u := by
  unfold Rods.rd
  simp only [towRod]
  by_cases hN : R.N = 0
  · simp only [hN, if_true]
    split_ifs <;> module
  · simp only [hN, if_false]
    split_ifs <;> module

theorem t_Lsum (i : ℕ) : Lsum (towRod s u R) i = Lsum R i := by
  induction i with
  | zero => rfl
  | succ i ih =>
    simp only [Lsum]
    rw [ih]
    rfl

theorem t_rel (i j : ℕ) : Rods.r (towRod s u R) i - Rods.r (towRod s u R) j = Rods.r R i - Rods.r R j := by
  rw [t_r, t_r, add_sub_add_right_eq_sub]

variable (hf : Stream s u R.N e e') (hs : s 2 = 0)
include hf hs

theorem t_z (i : ℕ) : Rods.r (towRod s u R) i 2 = Rods.r R i 2 := by
  rw [t_r, Pi.add_apply, hs, add_zero]

theorem t_zeta : zetaI (towRod s u R) e' = zetaI R e := hf.zeta _ le_rfl

theorem t_h0 : h0 (towRod s u R) e' = h0 R e := by
  unfold h0
  dsimp only
  rw [t_zeta hf hs, t_z hf hs, t_z hf hs, t_N]
  rfl

theorem t_section (phi : ℝ) (i : ℕ) : crossSection (towRod s u R) (Rods.r (towRod s u R) i 2) (zetaI (towRod s u R) e') (Real.sin phi) =
    crossSection R (Rods.r R i 2) (zetaI R e) (Real.sin phi) := by
  rw [t_zeta hf hs, t_z hf hs]
  rfl

theorem t_vof (phi : ℝ) (i : ℕ) : vof (towRod s u R) e' phi i = vof R e phi i := by
  unfold vof
  rw [t_section hf hs, t_h0 hf hs, t_Lsum]
  rfl

theorem t_wet (phi : ℝ) (i : ℕ) : endWet (towRod s u R) e' phi i = endWet R e phi i := by
  unfold endWet
  rw [t_zeta hf hs, t_z hf hs]
  rfl

theorem t_M (phi : ℝ) (i : ℕ) : Rods.M (towRod s u R) e' phi i = Rods.M R e phi i := by
  unfold Rods.M addedM
  rw [t_vof hf hs, t_wet hf hs, hf.rho_w]
  rfl

theorem t_flow {i : ℕ} (hi : i ≤ R.N) : Rods.vq (towRod s u R) e' i = Rods.vq R e i ∧ Rods.vp (towRod s u R) e' i = Rods.vp R e i ∧
    Rods.aq (towRod s u R) e' i = Rods.aq R e i ∧ Rods.ap (towRod s u R) e' i = Rods.ap R e i := by
  have hq : (towRod s u R).q = R.q := rfl
  have h1 : Rods.vi (towRod s u R) e' i = Rods.vi R e i := by
    unfold Rods.vi
    rw [t_rd, hf.U i hi, add_sub_add_right_eq_sub]
  refine ⟨?_, ?_, ?_, ?_⟩
  · unfold Rods.vq
    rw [h1, hq]
  · unfold Rods.vp Rods.vq
    rw [h1, hq]
  · unfold Rods.aq
    rw [hf.Ud i hi, hq]
  · unfold Rods.ap Rods.aq
    rw [hf.Ud i hi, hq]

variable (hu : u 2 = 0)
include hu

theorem t_B (i : ℕ) : Rods.B (towRod s u R) e' i = Rods.B R e i := by
  have hd : e'.waterDepth (Rods.r (towRod s u R) i 0) (Rods.r (towRod s u R) i 1) = e.waterDepth (Rods.r R i 0) (Rods.r R i 1) := by
    rw [t_r]
    exact hf.depth _ _
  unfold Rods.B
  dsimp only
  rw [hd, t_z hf hs, t_rd, Pi.add_apply, hu, add_zero, hf.kb, hf.cb, t_N]
  rfl

theorem t_Fnet (phi beta : ℝ) {i : ℕ} (hi : i ≤ R.N) : Rods.Fnet (towRod s u R) e' phi beta i = Rods.Fnet R e phi beta i := by
  obtain ⟨h1, h2, h3, h4⟩ := t_flow hf hs hi
  have w1 : Rods.W (towRod s u R) e' i = Rods.W R e i := by
    unfold Rods.W
    rw [hf.g]
    rfl
  have w2 : Bo (towRod s u R) e' phi beta i = Bo R e phi beta i := by
    have : zA (towRod s u R) e' phi i = zA R e phi i := congrArg Prod.snd (t_section hf hs phi i)
    unfold Bo BoSide BoA BoB
    dsimp only
    rw [t_vof hf hs, t_wet hf hs, hf.rho_w, hf.g, this]
    rfl
  have w3 : Rods.Dp (towRod s u R) e' phi i = Rods.Dp R e phi i := by
    unfold Rods.Dp
    rw [t_vof hf hs, hf.rho_w, h2]
    rfl
  have w4 : Rods.Dq (towRod s u R) e' phi i = Rods.Dq R e phi i := by
    unfold Rods.Dq
    rw [t_vof hf hs, t_wet hf hs, hf.rho_w, h1]
    rfl
  have w5 : Rods.Ap (towRod s u R) e' phi i = Rods.Ap R e phi i := by
    unfold Rods.Ap
    rw [t_vof hf hs, hf.rho_w, h4]
    rfl
  have w6 : Rods.Aq (towRod s u R) e' phi i = Rods.Aq R e phi i := by
    unfold Rods.Aq
    rw [t_vof hf hs, t_wet hf hs, hf.rho_w, h3]
    rfl
  have w7 : Rods.Pd (towRod s u R) e' phi i = Rods.Pd R e phi i := by
    unfold Rods.Pd
    rw [t_vof hf hs, t_wet hf hs, hf.pdyn i hi]
    rfl
  unfold Rods.Fnet
  rw [w1, w2, w3, w4, w5, w6, w7, t_B hf hs hu]
  rfl

theorem t_F6 (phi beta : ℝ) : F6net (towRod s u R) e' phi beta = F6net R e phi beta := by
  have hF : ∀ i ∈ Finset.range (R.N + 1), Rods.Fnet (towRod s u R) e' phi beta i = Rods.Fnet R e phi beta i :=
    fun i hi => t_Fnet hf hs hu phi beta (Nat.lt_succ_iff.1 (Finset.mem_range.1 hi))
  have hM : Mext (towRod s u R) e' phi beta = Mext R e phi beta := by
    unfold Mext MextCap MextWater
    dsimp only
    rw [t_vof hf hs, t_vof hf hs, t_wet hf hs, t_wet hf hs, hf.rho_w, hf.g, t_z hf hs, t_z hf hs, t_zeta hf hs]
    rfl
  unfold F6net
  rw [hM, t_N, Finset.sum_congr rfl hF]
  congr 2
  refine Finset.sum_congr rfl fun i hi => ?_
  rw [hF i hi, t_rel]

/-- C107: force, moment and mass matrix of a rod. -/
theorem C107_rod (rRef w : V) : getNetForceAndMass (towRod s u R) e' (rRef + s) w = getNetForceAndMass R e rRef w := by
  have ha : angles (towRod s u R) = angles R := rfl
  have hM : ∀ phi beta, M6net (towRod s u R) e' phi beta = M6net R e phi beta := by
    intro phi beta
    unfold M6net
    simp only [t_rel, t_M hf hs]
    rfl
  have hc : ∀ phi, centripetal (towRod s u R) e' phi (rRef + s) w = centripetal R e phi rRef w := by
    intro phi
    unfold centripetal
    simp only [t_r, t_M hf hs, add_sub_add_right_eq_sub]
    rfl
  unfold getNetForceAndMass
  simp only [ha, hM, t_F6 hf hs hu, hc, t_r, add_sub_add_right_eq_sub]

/-- C107: the accelerations of a free rod and of a rod that is pinned to a body. -/
theorem C107_rod_acc (a al : V) : (Rods.freeAcc (towRod s u R) e' a al ↔ Rods.freeAcc R e a al) ∧
    (pinnedRodAcc (towRod s u R) e' al ↔ pinnedRodAcc R e al) := by
  constructor
  · unfold Rods.freeAcc
    rw [t_r, C107_rod hf hs hu]
  · unfold pinnedRodAcc
    rw [t_r, C107_rod hf hs hu]

end rod

/-! ## Bodies -/

section body
variable {s u : V} {e e' : Env}

theorem b_point (p : Point) (rho g : ℝ) (rBody w : V) :
    (towPoint s u p).getNetForceAndMass rho g (rBody + s) w = p.getNetForceAndMass rho g rBody w := by
  have h1 : (towPoint s u p).doRHS rho g = p.doRHS rho g := doRHS_tow p _ rho g
  have h2 : (towPoint s u p).r - (rBody + s) = p.r - rBody := by
    simp only [towPoint]
    rw [add_sub_add_right_eq_sub]
  unfold Point.getNetForceAndMass
  rw [h1, h2]

theorem b_own (B : Body) (rho g : ℝ) : (towBody s u B).ownF rho g = B.ownF rho g := by
  have h1 : (towBody s u B).drag rho = B.drag rho := by
    unfold Body.drag
    simp only [towBody]
    rw [add_sub_add_right_eq_sub]
  unfold Body.ownF
  rw [h1]
  rfl

theorem b_rods (rods : List Rod) (p w : V) (hf : ∀ N, Stream s u N e e') (hs : s 2 = 0) (hu : u 2 = 0) :
    ((rods.map (towRod s u)).mapM fun R => getNetForceAndMass R e' (p + s) w) = rods.mapM fun R => getNetForceAndMass R e p w := by
  induction rods with
  | nil => simp only [List.map_nil, List.mapM_nil]
  | cons R rods ih => rw [List.map_cons, List.mapM_cons, List.mapM_cons, C107_rod (hf _) hs hu, ih]

/-- C107: force, moment and mass matrix of a body with points and rods. -/
theorem C107_body (B : Body) (points : List Point) (rods : List Rod) (hf : ∀ N, Stream s u N e e') (hs : s 2 = 0) (hu : u 2 = 0) :
    (towBody s u B).doRHS e' (points.map (towPoint s u)) (rods.map (towRod s u)) = B.doRHS e points rods := by
  have hp : (towBody s u B).pos = B.pos + s := rfl
  have hw : (towBody s u B).w = B.w := rfl
  unfold Body.doRHS
  dsimp only
  have h1 : (points.map (towPoint s u)).map (fun p => p.getNetForceAndMass e.rho_w e.g (B.pos + s) B.w) =
      points.map fun p => p.getNetForceAndMass e.rho_w e.g B.pos B.w := by
    rw [List.map_map]
    exact List.map_congr_left fun p _ => b_point p _ _ _ _
  have h2 : (towBody s u B).ownM e.rho_w = B.ownM e.rho_w := rfl
  rw [hp, hw, (hf 0).rho_w, (hf 0).g, b_own, h1, h2, b_rods rods B.pos B.w hf hs hu]

/-- C107: the accelerations of free and of pinned bodies, and what is given back for coupled ones. -/
theorem C107_body_acc (B : Body) (points : List Point) (rods : List Rod) (hf : ∀ N, Stream s u N e e') (hs : s 2 = 0) (hu : u 2 = 0) (a al : V) :
    ((towBody s u B).freeAcc e' (points.map (towPoint s u)) (rods.map (towRod s u)) a al ↔ B.freeAcc e points rods a al) ∧
    ((towBody s u B).pinnedAcc e' (points.map (towPoint s u)) (rods.map (towRod s u)) a al ↔ B.pinnedAcc e points rods a al) ∧
    ((towBody s u B).doRHS e' (points.map (towPoint s u)) (rods.map (towRod s u))).map (fun x => (coupledFnet x a al, pinnedFnet x a al)) =
      (B.doRHS e points rods).map fun x => (coupledFnet x a al, pinnedFnet x a al) := by
  unfold Body.freeAcc Body.pinnedAcc
  rw [C107_body B points rods hf hs hu]
  exact ⟨Iff.rfl, Iff.rfl, rfl⟩

/-- C107: a body gives its points and rods places that differ by the way and velocities that differ by the velocity. -/
theorem C107_body_parts (B : Body) (rel dir q0 : V) (p : Point) (R : Rod) :
    (towBody s u B).setPoint rel (towPoint s u p) = towPoint s u (B.setPoint rel p) ∧
    (towBody s u B).setRod rel dir q0 (towRod s u R) = (B.setRod rel dir q0 R).map (towRod s u) ∧
    (towBody s u B).setPinnedRod rel (towRod s u R) = towRod s u (B.setPinnedRod rel R) := by
  have hk : transformKinematics rel (towBody s u B).OrMat (towBody s u B).pos (towBody s u B).v (towBody s u B).w =
      ((transformKinematics rel B.OrMat B.pos B.v B.w).1 + s, (transformKinematics rel B.OrMat B.pos B.v B.w).2 + u) := by
    unfold transformKinematics
    simp only [towBody]
    exact Prod.ext (add_assoc _ _ _).symm (add_right_comm _ _ _)
  refine ⟨?_, ?_, ?_⟩
  · unfold Body.setPoint
    dsimp only
    rw [hk]
    rfl
  · unfold Body.setRod
    dsimp only
    rw [hk, Option.map_map]
    rfl
  · unfold Body.setPinnedRod
    dsimp only
    rw [hk]
    rfl

end body

/-! ## Cases -/

/-- Water that flows with `x`. -/
noncomputable def stream (x : V) : Env := ⟨1025, 98 / 10, 10 ^ 5, 10 ^ 4, 0, 0, 0, fun _ _ => -50, fun _ => 0, fun _ => x, fun _ => 0, fun _ => 0⟩

/-- A rod that reaches through the surface. -/
noncomputable def spar : Rod := ⟨4, 1 / 2, 500, 1, 0, 1, 1, 1, 4, ![0, 0, -2], ![3 / 5, 0, 4 / 5], 0, ![0, 1 / 10, 0], [], []⟩

/-- A body in still water. -/
noncomputable def hull : Body := ⟨1000, 2, 0, ![1, 1, 1], ![1, 2, 3], ![1, 1, 1], ![1, 1, 1], ![0, 0, 0], ![0, 0, -2], 1, 0, 0, 0⟩

/-- The hypotheses of `C107_rod` and `C107_body`, and a body on which the flow matters: in water that does not take part, drag acts on it. -/
example : (∀ N, Stream ![5, 0, 0] ![1, 0, 0] N (stream 0) (stream ![1, 0, 0])) ∧
    (towBody ![5, 0, 0] ![1, 0, 0] hull).drag 1025 = 0 ∧ Body.drag { hull with v := ![1, 0, 0] } 1025 0 = -1025 / 2 ∧
    (∃ a, angles spar = some a) := by
  refine ⟨fun N => ⟨rfl, rfl, rfl, rfl, fun _ _ => rfl, fun _ _ => rfl, fun _ _ => (zero_add _).symm, fun _ _ => rfl, fun _ _ => rfl⟩, ?_, ?_, ?_⟩
  · simp [Body.drag, towBody, hull, Mooring.norm]
  · simp [Body.drag, hull, Mooring.norm, dotProduct, Fin.sum_univ_three, Matrix.mulVec_diagonal]
    norm_num
  · unfold angles orientationAngles
    have hN : spar.N = 4 := rfl
    have hu : spar.q ⬝ᵥ spar.q = 1 := by
      simp [spar, dotProduct, Fin.sum_univ_three]
      norm_num
    rw [hN, if_neg (by norm_num), hu, if_neg (by norm_num)]
    exact ⟨_, rfl⟩

end MD.Towing
