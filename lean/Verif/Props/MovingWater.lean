import Verif.Props.Rod
import Verif.Props.Point

/-!
# Objects moving with the water (C78)

An object that has the velocity and the acceleration of the water around it feels no drag, and the
only force of the accelerating water is that on the water it displaces: the added mass cancels.
-/

set_option linter.unusedSimpArgs false
set_option linter.unusedVariables false
set_option linter.unnecessarySeqFocus false

namespace MD.MovingWater

open Matrix MD.Mat MD.Rot MD.Mooring Finset

/-- `q qᵀ a = (a · q) q` -/
theorem outer_mulVec (u a : V) : vecMulVec u u *ᵥ a = (a ⬝ᵥ u) • u := by
  funext k
  fin_cases k <;> simp [vecMulVec, mulVec, dotProduct, Fin.sum_univ_three] <;> ring

theorem norm_zero : Mooring.norm (0 : V) = 0 := by
  simp [Mooring.norm]

/-! ## Lines -/

/-- C78: a line node moving at the velocity of the water feels no drag. -/
theorem C78_line_drag (L : Line) (e : Env) (i : ℕ) (h : L.rd i = e.U i) :
    Mooring.Dp L e i + Mooring.Dq L e i = 0 := by
  have h0 : Mooring.vrel L e i = 0 := by simp [Mooring.vrel, h]
  have h1 : Mooring.vq L e i = 0 := by simp [Mooring.vq, h0]
  have h2 : Mooring.vp L e i = 0 := by simp [Mooring.vp, h0, h1]
  simp [Mooring.Dp, Mooring.Dq, h1, h2]

/-- C78: a line node accelerating with the water feels the force the water it displaces would feel,
whatever the added mass coefficients. -/
theorem C78_line_inertia (L : Line) (e : Env) (i : ℕ) :
    Mooring.Ap L e i + Mooring.Aq L e i - (Mooring.M L e i - Mooring.m L i • 1) *ᵥ e.Ud i
      = (e.rho_w * Mooring.v L e i) • e.Ud i := by
  unfold Mooring.Ap Mooring.Aq Mooring.M Mooring.v Mooring.ap Mooring.aq
  simp only [add_sub_cancel_left, smul_mulVec, add_mulVec, sub_mulVec, one_mulVec, outer_mulVec]
  generalize (e.Ud i ⬝ᵥ Mooring.q L i) • Mooring.q L i = x
  module

/-! ## Rods -/

open MD.Rods

variable {R : Rod} {e : Env}

/-- C78: a rod node moving at the velocity of the water feels no drag. -/
theorem C78_rod_drag (phi : ℝ) (i : ℕ) (h : Rods.rd R i = e.U i) :
    Rods.Dp R e phi i + Rods.Dq R e phi i = 0 := by
  have h0 : Rods.vi R e i = 0 := by simp [Rods.vi, h]
  have h1 : Rods.vq R e i = 0 := by simp [Rods.vq, h0]
  have h2 : Rods.vp R e i = 0 := by simp [Rods.vp, h0, h1]
  simp [Rods.Dp, Rods.Dq, h1, h2]

/-- C78: the same for a rod node, across the axis; rods of input files have no axial added mass
(source/MoorDyn2.cpp:1784-1785). Wet or not, ends included. -/
theorem C78_rod_node (hN : R.N ≠ 0) (hq : R.q ⬝ᵥ R.q = 1) (hC : R.Cat = 0) (phi : ℝ) (i : ℕ) :
    Rods.Ap R e phi i + Rods.Aq R e phi i - Rods.addedM R e phi i *ᵥ e.Ud i
      = (Rods.vof R e phi i * e.rho_w * Rods.v R i) • (e.Ud i - (e.Ud i ⬝ᵥ R.q) • R.q) := by
  classical
  have key : ∀ (p : Prop) [Decidable p] (c : ℝ),
      (if p then c • vecMulVec R.q R.q else 0 : M3 ℝ) *ᵥ e.Ud i
        = if p then c • ((e.Ud i ⬝ᵥ R.q) • R.q) else 0 := by
    intro p _ c
    by_cases hp : p
    · rw [if_pos hp, if_pos hp, smul_mulVec, outer_mulVec]
    · rw [if_neg hp, if_neg hp, zero_mulVec]
  unfold Rods.Ap Rods.Aq Rods.addedM Rods.ap Rods.aq Rods.Q
  rw [if_neg hN, hC]
  simp only [add_mulVec, key]
  simp only [smul_mulVec, sub_mulVec, one_mulVec, outer_mulVec, zero_smul, add_zero]
  generalize (e.Ud i ⬝ᵥ R.q) • R.q = x
  abel_nf
  module

/-- Water that accelerates uniformly: the acceleration is `a` along the rod and the dynamic pressure
falls in its direction, `∇p = -ρ a` -/
structure Uniform (R : Rod) (e : Env) (a : V) (p0 : ℝ) : Prop where
  acc : ∀ i ≤ R.N, e.Ud i = a
  pressure : ∀ i ≤ R.N, e.pdyn i = p0 - e.rho_w * (a ⬝ᵥ Rods.r R i)

/-- C78: a submerged rod accelerating with uniformly accelerating water feels the force the water it
displaces would feel: transverse forces on the nodes and pressure on the caps add up to that,
whatever the added mass and drag coefficients. -/
theorem C78_rod (hR : Proper R) (hs : Submerged R e) (hC : R.Cat = 0) {ang : ℝ × ℝ}
    (h : Rods.angles R = some ang) {a : V} {p0 : ℝ} (hu : Uniform R e a p0)
    (hv : ∀ i ≤ R.N, Rods.rd R i = e.U i) :
    ∑ i ∈ range (R.N + 1), (Rods.Dp R e ang.1 i + Rods.Dq R e ang.1 i + Rods.Ap R e ang.1 i
        + Rods.Aq R e ang.1 i + Rods.Pd R e ang.1 i)
      - (∑ i ∈ range (R.N + 1), Rods.addedM R e ang.1 i) *ᵥ a
      = (e.rho_w * volume R) • a := by
  classical
  have hN' : (R.N : ℝ) ≠ 0 := by exact_mod_cast hR.hN
  have h1 : ∀ i ∈ range (R.N + 1), (Rods.Dp R e ang.1 i + Rods.Dq R e ang.1 i
      + Rods.Ap R e ang.1 i + Rods.Aq R e ang.1 i + Rods.Pd R e ang.1 i)
      - Rods.addedM R e ang.1 i *ᵥ a
      = Rods.dL R i • ((e.rho_w * Rods.area R) • (a - (a ⬝ᵥ R.q) • R.q))
        + ((if i = 0 then (Rods.area R * e.pdyn i) • R.q else 0)
          + (if i = R.N then (-Rods.area R * e.pdyn i) • R.q else 0)) := by
    intro i hi
    rw [mem_range] at hi
    have hi' : i ≤ R.N := by omega
    have hd := C78_rod_drag ang.1 i (hv i hi')
    have hn := C78_rod_node (e := e) hR.hN hR.hq hC ang.1 i
    rw [hu.acc i hi', vof_submerged hR hs h hi', v_eq hR.hN] at hn
    have hp : Rods.Pd R e ang.1 i = (if i = 0 then (Rods.area R * e.pdyn i) • R.q else 0)
          + (if i = R.N then (-Rods.area R * e.pdyn i) • R.q else 0) := by
      unfold Rods.Pd
      have hw := endWet_submerged hR hs h hi'
      simp only [hw, and_true, vof_submerged hR hs h hi']
      congr 1
      · split_ifs
        · congr 1; ring
        · rfl
      · split_ifs
        · congr 1; ring
        · rfl
    rw [hd, hp, zero_add, ← sub_add_eq_add_sub, hn, smul_smul]
    congr 2
    ring
  have h2 : (∑ i ∈ range (R.N + 1), Rods.addedM R e ang.1 i) *ᵥ a
      = ∑ i ∈ range (R.N + 1), Rods.addedM R e ang.1 i *ᵥ a := by
    rw [Matrix.sum_mulVec]
  rw [h2, ← sum_sub_distrib, sum_congr rfl h1, sum_add_distrib, ← sum_smul, sum_dL hR.hN, sum_caps,
    hu.pressure 0 (Nat.zero_le _), hu.pressure R.N le_rfl, r_eq hR.hN, r_eq hR.hN, div_self hN']
  simp only [Nat.cast_zero, zero_div, zero_mul, zero_smul, add_zero, one_mul, dotProduct_add,
    dotProduct_smul, smul_eq_mul]
  unfold Rods.area volume
  generalize a ⬝ᵥ R.q = y
  module

/-- The water of the example accelerates along x -/
noncomputable def surge : Env :=
  { still with
    Ud := fun _ => ![1, 0, 0]
    pdyn := fun i => -1000 * (if i = 2 then 6 else if i = 1 then 3 else 0) }

/-- An inclined rod at 50 m depth in water that accelerates horizontally -/
noncomputable def tube : Rod := { spar (-50) with Cat := 0 }

theorem tube_proper : Proper tube := by
  have h := spar_proper (-50)
  exact ⟨h.hN, h.hd, h.hL, h.hq⟩

example : Proper tube ∧ Submerged tube surge ∧ tube.Cat = 0 ∧
    Uniform tube surge ![1, 0, 0] 0 ∧ (∀ i ≤ tube.N, Rods.rd tube i = surge.U i) := by
  refine ⟨tube_proper, ?_, rfl, ⟨fun i _ => rfl, ?_⟩, ?_⟩
  · intro s h0 h1
    have : Real.sqrt (3 / 5 * (3 / 5)) = 3 / 5 := Real.sqrt_mul_self (by norm_num)
    simp [tube, spar, axisPoint, halfHeight, surge, still] at *
    rw [this]
    linarith
  · intro i hi
    have hi' : i ≤ 2 := hi
    have hc : i = 0 ∨ i = 1 ∨ i = 2 := by omega
    rcases hc with rfl | rfl | rfl <;>
      simp [tube, spar, Rods.r, surge, still, dotProduct, Fin.sum_univ_three] <;> norm_num
  · intro i hi
    simp [tube, spar, Rods.rd, surge, still]

/-! ## Points -/

open MD.Bodies

/-- C78 fails for points (the code has a remark that it is still to be done,
source/Point.cpp:367): the acceleration of the water never enters. A neutrally buoyant free point at
rest with the water stays at rest whatever the acceleration of the water, so it does not follow
it: no acceleration but zero solves the equation of motion. -/
theorem C78_point_false (p : Point) (rho_w g : ℝ) (hneutral : p.pointM = rho_w * p.pointV)
    (hM : 0 < p.pointM) (hCa : 0 ≤ p.pointCa) (hF : p.pointF = 0) (hv : p.rd = p.U)
    (hatt : p.attached = []) (a : V) : p.acc rho_w g a ↔ a = 0 := by
  unfold Point.acc Point.doRHS
  rw [hatt, hF, hv]
  simp only [Bodies.pointLoop, sub_self, dotProduct_zero, mul_zero, zero_mul, zero_smul, add_zero]
  have h0 : (0 + ![0, 0, g * (p.pointV * rho_w - p.pointM)] : V) = 0 := by
    rw [hneutral]
    funext k
    fin_cases k <;> simp <;> ring_nf <;> simp
  rw [h0, ← add_smul, smul_mulVec, one_mulVec]
  have hc : p.pointM + p.pointV * rho_w * p.pointCa ≠ 0 := by
    have : 0 ≤ p.pointV * rho_w * p.pointCa := by
      rw [mul_comm p.pointV, ← hneutral]
      positivity
    linarith [hM]
  constructor
  · intro h
    rcases smul_eq_zero.1 h with h | h
    · exact absurd h hc
    · exact h
  · intro h
    rw [h, smul_zero]

example : ∃ p : Point, p.pointM = 1000 * p.pointV ∧ 0 < p.pointM ∧ p.pointCa = 1 ∧ p.rd = p.U :=
  ⟨⟨1000, 1, 0, 1, 1, ![0, 0, -10], ![1, 0, 0], ![1, 0, 0], []⟩, by norm_num, by norm_num, rfl, rfl⟩

/-- C78 fails for bodies: a neutrally buoyant free body moving steadily with the water satisfies the
equation of motion with zero acceleration, whatever the acceleration `e.Ud` of the water. -/
theorem C78_body_false (b : Body) (e : Env) (hneutral : b.bodyM = e.rho_w * b.bodyV) (hv : b.v = b.U)
    (hw : b.w = 0) : b.freeAcc e [] [] 0 0 := by
  have h1 : b.Fgrav e.rho_w e.g = 0 := by
    unfold Body.Fgrav
    rw [hneutral]
    funext k
    fin_cases k
    · rfl
    · rfl
    · show b.bodyV * e.rho_w * e.g - e.rho_w * b.bodyV * e.g = 0
      ring
  have h2 : b.drag e.rho_w = 0 := by simp [Body.drag, hv]
  have h3 : b.dragMoment e.rho_w = 0 := by simp [Body.dragMoment, hw]
  refine ⟨0, 0, b.ownM e.rho_w, ?_, ?_⟩
  · simp [Body.doRHS, Bodies.addAll, Body.ownF, h1, h2, h3, hw]
  · have : (Sum.elim 0 0 : Fin 3 ⊕ Fin 3 → ℝ) = 0 := by
      funext k
      cases k <;> rfl
    rw [this, mulVec_zero]

example : ∃ (b : Body), b.bodyM = surge.rho_w * b.bodyV ∧ b.v = b.U ∧ b.w = 0 ∧ b.v ≠ 0 ∧
    surge.Ud 0 ≠ 0 := by
  refine ⟨⟨1000, 1, 0, 1, 1, 1, 1, 1, ![0, 0, -10], 1, ![1, 0, 0], 0, ![1, 0, 0]⟩, ?_, rfl, rfl, ?_,
    ?_⟩
  · norm_num [surge, still]
  · intro h
    have := congrFun h 0
    simp at this
  · intro h
    have := congrFun h 0
    simp [surge] at this

end MD.MovingWater
