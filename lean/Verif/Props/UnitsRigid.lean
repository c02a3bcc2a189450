import Verif.Props.Units
import Verif.Props.FrameRigid

/-!
# C108: rods and bodies in other units
-/

set_option linter.unusedSimpArgs false
set_option linter.unusedSectionVars false
set_option linter.unusedVariables false

namespace MD.Units

open Matrix MD.Mat MD.Mooring MD.Bodies MD.Rods

/-! ## Specification -/

variable (u : Units)

/-- A rod in the new units. -/
noncomputable def rod (R : Rod) : Rod where
  N := R.N
  d := u.len * R.d
  rho := u.dens * R.rho
  Can := R.Can
  Cat := R.Cat
  Cdn := R.Cdn
  CdEnd := R.CdEnd
  CaEnd := R.CaEnd
  UnstrLen := u.len * R.UnstrLen
  r0 := u.len • R.r0
  q := R.q
  vA := u.vel • R.vA
  w := (1 / u.tim) • R.w
  attachedA := R.attachedA.map fun a => (u.force • a.1, (u.force * u.len) • a.2.1, u.mas • a.2.2)
  attachedB := R.attachedB.map fun a => (u.force • a.1, (u.force * u.len) • a.2.1, u.mas • a.2.2)

/-- A body in the new units: the drag coefficients of translations are areas, those of rotations fifth powers of lengths; the coefficients of added mass
are numbers and areas. -/
noncomputable def body (B : Body) : Body where
  bodyM := u.mas * B.bodyM
  bodyV := u.len ^ 3 * B.bodyV
  body_rCG := u.len • B.body_rCG
  bodyI := (u.mas * u.len ^ 2) • B.bodyI
  CdA := u.len ^ 2 • B.CdA
  CdAr := u.len ^ 5 • B.CdAr
  Ca := B.Ca
  Car := u.len ^ 2 • B.Car
  pos := u.len • B.pos
  OrMat := B.OrMat
  v := u.vel • B.v
  w := (1 / u.tim) • B.w
  U := u.vel • B.U

/-- A matrix of masses, of first and of second moments of mass. -/
noncomputable def mass6 (M : M6 ℝ) : M6 ℝ :=
  fromBlocks (u.mas • M.toBlocks₁₁) ((u.mas * u.len) • M.toBlocks₁₂) ((u.mas * u.len) • M.toBlocks₂₁) ((u.mas * u.len ^ 2) • M.toBlocks₂₂)

/-- Force, moment and mass matrix. -/
noncomputable def load (x : V × V × M6 ℝ) : V × V × M6 ℝ := (u.force • x.1, (u.force * u.len) • x.2.1, mass6 u x.2.2)

/-- The rod is not nearly, but not quite, vertical where one of its sections reaches through the surface of the water. -/
def Sheer (R : Rod) (e : Env) : Prop :=
  ∀ a, angles R = some a → ∀ i ≤ R.N, |Real.sin a.1| < 1 / 1000 → Real.sin a.1 = 0 ∨ z1lo R (Rods.r R i 2) (Real.sin a.1) > zetaI R e ∨
    z1hi R (Rods.r R i 2) (Real.sin a.1) < zetaI R e

/-! ## Rods -/

variable {u} {R : Rod} {e e' : Env}

theorem turn_len (a b : V) : ((1 / u.tim) • a) ⨯₃ (u.len • b) = u.vel • (a ⨯₃ b) := by
  rw [LinearMap.map_smul₂, map_smul, smul_smul]
  congr 1
  unfold Units.vel
  ring

theorem twice (w p : V) : ((1 / u.tim) • w) ⨯₃ (((1 / u.tim) • w) ⨯₃ (u.len • p)) = u.acc • (w ⨯₃ (w ⨯₃ p)) := by
  have h1 := u_tim (u := u)
  rw [turn_len, LinearMap.map_smul₂, map_smul, smul_smul]
  congr 1
  unfold Units.vel Units.acc
  field_simp

theorem x_N : (rod u R).N = R.N := rfl
theorem x_d : (rod u R).d = u.len * R.d := rfl
theorem x_L : (rod u R).UnstrLen = u.len * R.UnstrLen := rfl

theorem x_r (i : ℕ) : Rods.r (rod u R) i = u.len • Rods.r R i := by
  have e1 : (rod u R).r0 = u.len • R.r0 := rfl
  have e2 : (rod u R).q = R.q := rfl
  unfold Rods.r
  dsimp only
  rw [x_N, x_L, e1, e2]
  split_ifs <;> module

theorem x_rd (i : ℕ) : Rods.rd (rod u R) i = u.vel • Rods.rd R i := by
  have e1 : ((1 / u.tim) • R.w) ⨯₃ ((u.len * R.UnstrLen) • R.q) = u.vel • (R.w ⨯₃ (R.UnstrLen • R.q)) := by
    rw [mul_smul, turn_len]
  have e2 : (rod u R).vA = u.vel • R.vA := rfl
  have e3 : (rod u R).q = R.q := rfl
  have e4 : (rod u R).w = (1 / u.tim) • R.w := rfl
  unfold Rods.rd
  dsimp only
  rw [x_N, x_L, e2, e3, e4, e1]
  split_ifs <;> module

theorem x_r2 (i : ℕ) : Rods.r (rod u R) i 2 = u.len * Rods.r R i 2 := by
  rw [x_r]
  rfl

theorem x_l : Rods.l (rod u R) = u.len * Rods.l R := by
  unfold Rods.l
  rw [x_N, x_L]
  split_ifs <;> ring

theorem x_segV : segV (rod u R) = u.len ^ 3 * segV R := by
  unfold segV
  rw [x_l, x_N]
  try rw [x_d]
  split_ifs <;> ring

theorem x_dL (i : ℕ) : dL (rod u R) i = u.len * dL R i := by
  unfold dL
  rw [x_l, x_N]
  try rw [x_d]
  split_ifs <;> ring

theorem x_area : area (rod u R) = u.len ^ 2 * area R := by
  unfold area
  simp only [rod]
  ring

theorem x_m (i : ℕ) : Rods.m (rod u R) i = u.mas * Rods.m R i := by
  have h0 := u_len (u := u)
  unfold Rods.m
  rw [x_area, x_dL]
  simp only [rod, Units.dens]
  field_simp

theorem x_v (i : ℕ) : Rods.v (rod u R) i = u.len ^ 3 * Rods.v R i := by
  unfold Rods.v
  rw [x_segV, x_N]
  split_ifs <;> ring

theorem x_Lsum (i : ℕ) : Lsum (rod u R) i = u.len * Lsum R i := by
  induction i with
  | zero => simp [Lsum]
  | succ i ih =>
    rw [Lsum, Lsum, ih, x_dL]
    ring

theorem x_VEnd : VEnd (rod u R) = u.len ^ 3 * VEnd R := by
  unfold VEnd
  simp only [rod]
  ring

theorem vof0_times (k : ℝ) (hk : 0 < k) (h Ls dl : ℝ) : vof0 (k * h) (k * Ls) (k * dl) = vof0 h Ls dl := by
  have c1 : k * h < 0 ↔ h < 0 := by
    constructor
    · intro a
      by_contra b
      nlinarith [mul_nonneg hk.le (not_lt.1 b)]
    · intro a
      exact mul_neg_of_pos_of_neg hk a
  have c2 : (k * h - k * Ls) / (k * dl) = (h - Ls) / dl := by rw [← mul_sub, mul_div_mul_left _ _ hk.ne']
  unfold vof0
  simp only [ge_iff_le, gt_iff_lt, ← mul_add, mul_le_mul_iff_right₀ hk, mul_lt_mul_iff_right₀ hk, c1, c2]

variable (hw : SameWater u e e')
include hw

theorem x_zeta : zetaI (rod u R) e' = u.len * zetaI R e := hw.zeta _

theorem x_h0 : h0 (rod u R) e' = u.len * h0 R e := by
  have hN : (rod u R).N = R.N := rfl
  unfold h0
  dsimp only
  rw [hN, x_r2, x_r2, x_zeta hw]
  simp only [rod, gt_iff_lt, mul_lt_mul_iff_right₀ u.len_pos]
  split_ifs <;> ring

theorem x_section (s : ℝ) (i : ℕ) : (crossSection (rod u R) (Rods.r (rod u R) i 2) (zetaI (rod u R) e') s).2 =
      u.len * (crossSection R (Rods.r R i 2) (zetaI R e) s).2 ∧
    ((|s| < 1 / 1000 → z1lo R (Rods.r R i 2) s > zetaI R e ∨ z1hi R (Rods.r R i 2) s < zetaI R e) →
      (crossSection (rod u R) (Rods.r (rod u R) i 2) (zetaI (rod u R) e') s).1 = u.len ^ 2 * (crossSection R (Rods.r R i 2) (zetaI R e) s).1) := by
  have h0 := u_len (u := u)
  rw [x_r2, x_zeta hw]
  have d1 : (rod u R).d = u.len * R.d := rfl
  have l1 : ∀ z, z1lo (rod u R) (u.len * z) s = u.len * z1lo R z s := by
    intro z
    unfold z1lo
    rw [d1]
    ring
  have l2 : ∀ z, z1hi (rod u R) (u.len * z) s = u.len * z1hi R z s := by
    intro z
    unfold z1hi
    rw [d1]
    ring
  generalize Rods.r R i 2 = z
  generalize zetaI R e = ze
  have e1 : 2 * ((u.len * z - u.len * ze) / |s|) / (u.len * R.d) = 2 * ((z - ze) / |s|) / R.d := by
    rw [← mul_sub, mul_div_assoc u.len, mul_left_comm, mul_div_mul_left _ _ h0]
  unfold crossSection
  simp only [l1, l2, d1, gt_iff_lt, mul_lt_mul_iff_right₀ u.len_pos, e1]
  split_ifs with c1 c2 c3
  · simp
  · simp
    intro
    ring
  · simp only [mul_zero, true_and]
    intro hc
    rcases hc c3 with hc | hc
    · exact absurd hc c1
    · exact absurd hc c2
  · dsimp only
    refine ⟨?_, fun _ => ?_⟩ <;> ring

theorem x_vof {phi : ℝ} {i : ℕ} (hs : |Real.sin phi| < 1 / 1000 → Real.sin phi = 0 ∨ z1lo R (Rods.r R i 2) (Real.sin phi) > zetaI R e ∨
    z1hi R (Rods.r R i 2) (Real.sin phi) < zetaI R e) : vof (rod u R) e' phi i = vof R e phi i := by
  have h0 := u_len (u := u)
  unfold vof
  rw [x_h0 hw, x_Lsum, x_dL, vof0_times _ u.len_pos]
  congr 1
  by_cases hz : Real.sin phi = 0
  · rw [hz]
    ring
  · rw [(x_section hw _ i).2 fun a => (hs a).resolve_left hz]
    have d1 : (rod u R).d = u.len * R.d := rfl
    rw [d1]
    have e1 : 1 / 4 * Real.pi * (u.len * R.d) * (u.len * R.d) = u.len ^ 2 * (1 / 4 * Real.pi * R.d * R.d) := by ring
    rw [e1, mul_div_mul_left _ _ (pow_ne_zero 2 h0)]

theorem x_wet (phi : ℝ) (i : ℕ) : endWet (rod u R) e' phi i ↔ endWet R e phi i := by
  unfold endWet
  have l1 : ∀ z s, z1lo (rod u R) (u.len * z) s = u.len * z1lo R z s := by
    intro z s
    unfold z1lo
    simp only [rod]
    ring
  rw [x_r2, x_zeta hw, l1]
  exact mul_lt_mul_iff_right₀ u.len_pos

theorem x_zA (phi : ℝ) (i : ℕ) : zA (rod u R) e' phi i = u.len * zA R e phi i := (x_section hw _ i).1

omit hw in
theorem sum_times (k1 k2 k3 : ℝ) (l : List (V × V × M3 ℝ)) :
    ((l.map fun a => (k1 • a.1, k2 • a.2.1, k3 • a.2.2)).map fun a => a.1).sum = k1 • (l.map fun a => a.1).sum ∧
    ((l.map fun a => (k1 • a.1, k2 • a.2.1, k3 • a.2.2)).map fun a => a.2.1).sum = k2 • (l.map fun a => a.2.1).sum ∧
    ((l.map fun a => (k1 • a.1, k2 • a.2.1, k3 • a.2.2)).map fun a => a.2.2).sum = k3 • (l.map fun a => a.2.2).sum := by
  induction l with
  | nil => simp
  | cons x l ih =>
    simp only [List.map_cons, List.sum_cons, ih.1, ih.2.1, ih.2.2, smul_add]
    exact ⟨trivial, trivial, trivial⟩

omit hw in
theorem x_lines (i : ℕ) : Rods.lineF (rod u R) i = u.force • Rods.lineF R i ∧ lineM (rod u R) i = u.mas • lineM R i ∧
    MextLine (rod u R) = (u.force * u.len) • MextLine R := by
  have e1 : (rod u R).attachedA = R.attachedA.map fun a => (u.force • a.1, (u.force * u.len) • a.2.1, u.mas • a.2.2) := rfl
  have e2 : (rod u R).attachedB = R.attachedB.map fun a => (u.force • a.1, (u.force * u.len) • a.2.1, u.mas • a.2.2) := rfl
  have sA := sum_times u.force (u.force * u.len) u.mas R.attachedA
  have sB := sum_times u.force (u.force * u.len) u.mas R.attachedB
  refine ⟨?_, ?_, ?_⟩
  · unfold Rods.lineF
    rw [e1, e2, x_N, sA.1, sB.1, smul_add]
    split_ifs <;> simp
  · unfold lineM
    rw [e1, e2, x_N, sA.2.2, sB.2.2, smul_add]
    split_ifs <;> simp
  · unfold MextLine
    rw [e1, e2, sA.2.1, sB.2.1, smul_add]

theorem x_flow (i : ℕ) : Rods.vq (rod u R) e' i = u.vel • Rods.vq R e i ∧ Rods.vp (rod u R) e' i = u.vel • Rods.vp R e i ∧
    Rods.aq (rod u R) e' i = u.acc • Rods.aq R e i ∧ Rods.ap (rod u R) e' i = u.acc • Rods.ap R e i := by
  have e0 : (rod u R).q = R.q := rfl
  have e1 : Rods.vi (rod u R) e' i = u.vel • Rods.vi R e i := by
    unfold Rods.vi
    rw [hw.U, x_rd, smul_sub]
  have e2 : Rods.vq (rod u R) e' i = u.vel • Rods.vq R e i := by
    unfold Rods.vq
    rw [e1, e0, smul_dotProduct, smul_assoc]
  have e3 : Rods.aq (rod u R) e' i = u.acc • Rods.aq R e i := by
    unfold Rods.aq
    rw [hw.Ud, e0, smul_dotProduct, smul_assoc]
  refine ⟨e2, ?_, e3, ?_⟩
  · unfold Rods.vp
    rw [e1, e2, smul_sub]
  · unfold Rods.ap
    rw [hw.Ud, e3, smul_sub]

variable (hs : SameSea u e e')
include hs

variable {phi : ℝ} {i : ℕ} (hv : vof (rod u R) e' phi i = vof R e phi i)
include hv

open Classical in
theorem x_M : Rods.M (rod u R) e' phi i = u.mas • Rods.M R e phi i := by
  have h0 := u_len (u := u)
  have ea : ∀ (R : Rod) (e : Env), addedM R e phi i =
    (vof R e phi i * e.rho_w * Rods.v R i) • (R.Can • (1 - Rods.Q R.q) + R.Cat • Rods.Q R.q)
    + (if i = 0 ∧ endWet R e phi i then (vof R e phi i * e.rho_w * R.CaEnd * VEnd R) • Rods.Q R.q else 0)
    + (if i = R.N ∧ endWet R e phi i then (vof R e phi i * e.rho_w * R.CaEnd * VEnd R) • Rods.Q R.q else 0) := fun _ _ => rfl
  have e3 : (rod u R).Can = R.Can := rfl
  have e4 : (rod u R).Cat = R.Cat := rfl
  have e5 : (rod u R).CaEnd = R.CaEnd := rfl
  have e6 : (rod u R).q = R.q := rfl
  have k1 : vof R e phi i * (u.dens * e.rho_w) * (u.len ^ 3 * Rods.v R i) = u.mas * (vof R e phi i * e.rho_w * Rods.v R i) := by
    simp only [Units.dens]
    field_simp
  have k2 : vof R e phi i * (u.dens * e.rho_w) * R.CaEnd * (u.len ^ 3 * VEnd R) = u.mas * (vof R e phi i * e.rho_w * R.CaEnd * VEnd R) := by
    simp only [Units.dens]
    field_simp
  have ha : addedM (rod u R) e' phi i = u.mas • addedM R e phi i := by
    rw [ea, ea]
    simp only [x_wet hw]
    rw [hv, hs.rho_w, x_v, x_VEnd, x_N, e3, e4, e5, e6, k1, k2]
    split_ifs <;> module
  unfold Rods.M
  rw [ha, (x_lines i).2.1, x_m, mul_smul, smul_add, smul_add]

theorem x_W : Rods.W (rod u R) e' i = u.force • Rods.W R e i := by
  unfold Rods.W
  rw [x_N, x_m, hs.g]
  split_ifs
  · rw [smul_zero]
  · simp only [smul_cons, smul_eq_mul, mul_zero, smul_empty]
    congr 3
    simp only [Units.acc, Units.force]
    ring

omit hw hs hv in
theorem axial_times (k F a b : ℝ) : Rods.axial (k * F) a b = k • Rods.axial F a b := by
  ext i
  fin_cases i <;> simp [Rods.axial] <;> ring

open Classical in
theorem x_Bo (beta : ℝ) : Bo (rod u R) e' phi beta i = u.force • Bo R e phi beta i := by
  have h0 := u_len (u := u)
  have h1 := u_tim (u := u)
  have b1 : BoSide (rod u R) e' phi beta i = u.force • BoSide R e phi beta i := by
    unfold BoSide
    dsimp only
    rw [x_N, hv, x_v, hs.rho_w, hs.g]
    split_ifs
    · rw [smul_zero]
    · have k : -vof R e phi i * (u.len ^ 3 * Rods.v R i) * (u.dens * e.rho_w) * (u.acc * e.g) * Real.sin phi =
          u.force * (-vof R e phi i * Rods.v R i * e.rho_w * e.g * Real.sin phi) := by
        simp only [Units.dens, Units.acc, Units.force]
        field_simp
      rw [k]
      ext j
      fin_cases j <;> simp <;> ring
  have b2 : BoA (rod u R) e' phi beta i = u.force • BoA R e phi beta i := by
    have ea : ∀ (R : Rod) (e : Env), BoA R e phi beta i = if i = 0 ∧ endWet R e phi i then
        Rods.axial (-vof R e phi i * area R * e.rho_w * e.g * zA R e phi i) phi beta else 0 := fun _ _ => rfl
    have k : -vof R e phi i * (u.len ^ 2 * area R) * (u.dens * e.rho_w) * (u.acc * e.g) * (u.len * zA R e phi i) =
        u.force * (-vof R e phi i * area R * e.rho_w * e.g * zA R e phi i) := by
      simp only [Units.dens, Units.acc, Units.force]
      field_simp
    rw [ea, ea]
    simp only [x_wet hw]
    rw [hv, x_area, hs.rho_w, hs.g, x_zA hw, k, axial_times]
    split_ifs <;> simp
  have b3 : BoB (rod u R) e' phi beta i = u.force • BoB R e phi beta i := by
    have ea : ∀ (R : Rod) (e : Env), BoB R e phi beta i = if i = R.N ∧ endWet R e phi i then
        Rods.axial (vof R e phi i * area R * e.rho_w * e.g * zA R e phi i) phi beta else 0 := fun _ _ => rfl
    have k : vof R e phi i * (u.len ^ 2 * area R) * (u.dens * e.rho_w) * (u.acc * e.g) * (u.len * zA R e phi i) =
        u.force * (vof R e phi i * area R * e.rho_w * e.g * zA R e phi i) := by
      simp only [Units.dens, Units.acc, Units.force]
      field_simp
    rw [ea, ea]
    simp only [x_wet hw]
    rw [hv, x_N, x_area, hs.rho_w, hs.g, x_zA hw, k, axial_times]
    split_ifs <;> simp
  unfold Bo
  rw [b1, b2, b3, smul_add, smul_add]

open Classical in
theorem x_drag : Rods.Dp (rod u R) e' phi i = u.force • Rods.Dp R e phi i ∧ Rods.Dq (rod u R) e' phi i = u.force • Rods.Dq R e phi i ∧
    Rods.Ap (rod u R) e' phi i = u.force • Rods.Ap R e phi i ∧ Rods.Aq (rod u R) e' phi i = u.force • Rods.Aq R e phi i ∧
    Pd (rod u R) e' phi i = u.force • Pd R e phi i := by
  have h0 := u_len (u := u)
  have h1 := u_tim (u := u)
  obtain ⟨f1, f2, f3, f4⟩ := x_flow (R := R) hw i
  have e1 : (rod u R).q = R.q := rfl
  have e3 : (rod u R).Can = R.Can := rfl
  have e4 : (rod u R).Cdn = R.Cdn := rfl
  have e5 : (rod u R).CaEnd = R.CaEnd := rfl
  have e11 : (rod u R).CdEnd = R.CdEnd := rfl
  refine ⟨?_, ?_, ?_, ?_, ?_⟩
  · unfold Rods.Dp
    rw [hv, x_N, x_d, x_dL, hs.rho_w, e4, f2, norm_times _ u_vel.le, smul_smul]
    split_ifs
    · rw [smul_zero]
    · rw [smul_smul]
      congr 1
      simp only [Units.dens, Units.vel, Units.force]
      field_simp
  · have ea : ∀ (R : Rod) (e : Env), Rods.Dq R e phi i =
        (if i = 0 ∧ endWet R e phi i then
          (1 / 2 * vof R e phi i * area R * e.rho_w * R.CdEnd * Mooring.norm (Rods.vq R e i)) • Rods.vq R e i else 0)
        + (if i = R.N ∧ endWet R e phi i then
          (1 / 2 * vof R e phi i * area R * e.rho_w * R.CdEnd * Mooring.norm (Rods.vq R e i)) • Rods.vq R e i else 0) := fun _ _ => rfl
    have k : 1 / 2 * vof R e phi i * (u.len ^ 2 * area R) * (u.dens * e.rho_w) * R.CdEnd * (u.vel * Mooring.norm (Rods.vq R e i)) * u.vel =
        u.force * (1 / 2 * vof R e phi i * area R * e.rho_w * R.CdEnd * Mooring.norm (Rods.vq R e i)) := by
      simp only [Units.dens, Units.vel, Units.force]
      field_simp
    rw [ea, ea]
    simp only [x_wet hw]
    rw [hv, x_N, x_area, hs.rho_w, e11, f1, norm_times _ u_vel.le, smul_smul, k, mul_smul, smul_add]
    split_ifs <;> simp
  · unfold Rods.Ap
    rw [hv, x_N, x_v, hs.rho_w, e3, f4, smul_smul]
    split_ifs
    · rw [smul_zero]
    · rw [smul_smul]
      congr 1
      simp only [Units.dens, Units.acc, Units.force]
      field_simp
  · have ea : ∀ (R : Rod) (e : Env), Rods.Aq R e phi i =
        (if i = 0 ∧ endWet R e phi i then (vof R e phi i * e.rho_w * R.CaEnd * VEnd R) • Rods.aq R e i else 0)
        + (if i = R.N ∧ endWet R e phi i then (vof R e phi i * e.rho_w * R.CaEnd * VEnd R) • Rods.aq R e i else 0) := fun _ _ => rfl
    have k : vof R e phi i * (u.dens * e.rho_w) * R.CaEnd * (u.len ^ 3 * VEnd R) * u.acc =
        u.force * (vof R e phi i * e.rho_w * R.CaEnd * VEnd R) := by
      simp only [Units.dens, Units.acc, Units.force]
      field_simp
    rw [ea, ea]
    simp only [x_wet hw]
    rw [hv, x_N, x_VEnd, hs.rho_w, e5, f3, smul_smul, k, mul_smul, smul_add]
    split_ifs <;> simp
  · have ea : ∀ (R : Rod) (e : Env), Pd R e phi i =
        (if i = 0 ∧ endWet R e phi i then (vof R e phi i * area R * e.pdyn i) • R.q else 0)
        + (if i = R.N ∧ endWet R e phi i then (-vof R e phi i * area R * e.pdyn i) • R.q else 0) := fun _ _ => rfl
    have k : ∀ x, x * (u.len ^ 2 * area R) * (u.stress * e.pdyn i) = u.force * (x * area R * e.pdyn i) := by
      intro x
      simp only [Units.stress, Units.force]
      field_simp
    rw [ea, ea]
    simp only [x_wet hw]
    rw [hv, x_N, x_area, hw.pdyn, e1, k, k]
    split_ifs <;> module

theorem x_B : Rods.B (rod u R) e' i = u.force • Rods.B R e i := by
  have h0 := u_len (u := u)
  have h1 := u_tim (u := u)
  have h2 := (u_vel (u := u)).ne'
  unfold Rods.B
  dsimp only
  rw [x_N, x_d, x_dL, x_r, x_rd]
  simp only [Pi.smul_apply, smul_eq_mul]
  rw [hs.waterDepth, hs.kb, hs.cb]
  simp only [mul_lt_mul_iff_right₀ u.len_pos]
  split_ifs
  · rw [smul_zero]
  · simp only [smul_cons, smul_eq_mul, mul_zero, smul_empty]
    congr 3
    field_simp
  · rw [smul_zero]

theorem x_Fnet (beta : ℝ) : Rods.Fnet (rod u R) e' phi beta i = u.force • Rods.Fnet R e phi beta i := by
  obtain ⟨h1, h2, h3, h4, h5⟩ := x_drag hw hs hv
  unfold Rods.Fnet
  rw [x_W hw hs hv, x_Bo hw hs hv, h1, h2, h3, h4, h5, x_B hw hs hv, (x_lines i).1]
  simp only [smul_add]

omit hv

variable (hn : ∀ i ≤ R.N, vof (rod u R) e' phi i = vof R e phi i)
include hn

open Classical in
theorem x_Mext (beta : ℝ) : Mext (rod u R) e' phi beta = (u.force * u.len) • Mext R e phi beta := by
  have h0 := u_len (u := u)
  have h1 := u_tim (u := u)
  have b1 : MextCap (rod u R) e' phi beta = (u.force * u.len) • MextCap R e phi beta := by
    have ea : ∀ (R : Rod) (e : Env), MextCap R e phi beta =
        (if endWet R e phi 0 then (vof R e phi 0 * 1 / 64 * Real.pi * R.d * R.d * R.d * R.d * e.rho_w * e.g) •
            (![-(Real.sin phi * Real.sin beta), Real.sin phi * Real.cos beta, 0] : V) else 0)
        + (if endWet R e phi R.N then (vof R e phi R.N * 1 / 64 * Real.pi * R.d * R.d * R.d * R.d * e.rho_w * e.g) •
            (![Real.sin phi * Real.sin beta, -(Real.sin phi * Real.cos beta), 0] : V) else 0) := by
      intro R e
      unfold MextCap
      dsimp only
      congr 2
      · ext i
        fin_cases i <;> simp <;> ring
      · ext i
        fin_cases i <;> simp <;> ring
    have k : ∀ x, x * 1 / 64 * Real.pi * (u.len * R.d) * (u.len * R.d) * (u.len * R.d) * (u.len * R.d) * (u.dens * e.rho_w) * (u.acc * e.g) =
        u.force * u.len * (x * 1 / 64 * Real.pi * R.d * R.d * R.d * R.d * e.rho_w * e.g) := by
      intro x
      simp only [Units.dens, Units.acc, Units.force]
      field_simp
    rw [ea, ea]
    simp only [x_wet hw]
    rw [x_N, hn 0 (Nat.zero_le _), hn R.N le_rfl, x_d, hs.rho_w, hs.g, k, k, mul_smul (u.force * u.len), mul_smul (u.force * u.len), smul_add]
    split_ifs <;> simp
  have b2 : MextWater (rod u R) e' phi beta = (u.force * u.len) • MextWater R e phi beta := by
    have k : 1 / 16 * Real.pi * (u.len * R.d) * (u.len * R.d) * (u.len * R.d) * (u.len * R.d) * (u.dens * e.rho_w) * (u.acc * e.g) * Real.sin phi *
        Real.cos phi = u.force * u.len * (1 / 16 * Real.pi * R.d * R.d * R.d * R.d * e.rho_w * e.g * Real.sin phi * Real.cos phi) := by
      simp only [Units.dens, Units.acc, Units.force]
      field_simp
    unfold MextWater
    rw [x_N, x_r2, x_r2, x_zeta hw, x_d, hs.rho_w, hs.g, k, mul_smul (u.force * u.len)]
    simp only [gt_iff_lt, mul_lt_mul_iff_right₀ u.len_pos]
    split_ifs <;> simp
  unfold Mext
  rw [b1, b2, (x_lines 0).2.2, smul_add, smul_add]

theorem x_F6 (beta : ℝ) : F6net (rod u R) e' phi beta =
    (u.force • (F6net R e phi beta).1, (u.force * u.len) • (F6net R e phi beta).2) := by
  unfold F6net
  rw [x_N, x_Mext hw hs hn]
  have hF : ∀ i ∈ Finset.range (R.N + 1), Rods.Fnet (rod u R) e' phi beta i = u.force • Rods.Fnet R e phi beta i :=
    fun i hi => x_Fnet hw hs (hn i (Nat.lt_succ_iff.1 (Finset.mem_range.1 hi))) beta
  apply Prod.ext
  · dsimp only
    rw [Finset.smul_sum]
    exact Finset.sum_congr rfl hF
  · dsimp only
    rw [smul_add, Finset.smul_sum]
    congr 1
    refine Finset.sum_congr rfl fun i hi => ?_
    rw [hF i hi, x_r, x_r, ← smul_sub, LinearMap.map_smul₂, map_smul, smul_smul, mul_comm]

omit hw hs hn

theorem getH_times (k : ℝ) (r : V) : getH (k • r) = k • getH r := by
  ext i j
  fin_cases i <;> fin_cases j <;> simp [getH]

theorem mass6_add (A B : M6 ℝ) : mass6 u (A + B) = mass6 u A + mass6 u B := by
  ext i j
  rcases i with i | i <;> rcases j with j | j <;> simp [mass6, toBlocks₁₁, toBlocks₁₂, toBlocks₂₁, toBlocks₂₂] <;> ring

theorem mass6_sum {ι : Type} (l : Finset ι) (f : ι → M6 ℝ) : mass6 u (∑ i ∈ l, f i) = ∑ i ∈ l, mass6 u (f i) := by
  classical
  induction l using Finset.induction with
  | empty =>
    ext i j
    rcases i with i | i <;> rcases j with j | j <;> simp [mass6, toBlocks₁₁, toBlocks₁₂, toBlocks₂₁, toBlocks₂₂]
  | insert a l ha ih => rw [Finset.sum_insert ha, Finset.sum_insert ha, mass6_add, ih]

theorem translate_times (r : V) (M : M3 ℝ) : translateMass (u.len • r) (u.mas • M) = mass6 u (translateMass r M) := by
  unfold translateMass mass6
  dsimp only
  rw [getH_times]
  simp only [toBlocks_fromBlocks₁₁, toBlocks_fromBlocks₁₂, toBlocks_fromBlocks₂₁, toBlocks_fromBlocks₂₂, transpose_smul, mul_smul_comm,
    smul_mul_assoc, smul_smul]
  congr 2
  · ring
  · ring
  · ring

theorem translate6_times (r : V) (M : M6 ℝ) : translateMass6 (u.len • r) (mass6 u M) = mass6 u (translateMass6 r M) := by
  unfold translateMass6 mass6
  dsimp only
  rw [getH_times]
  simp only [toBlocks_fromBlocks₁₁, toBlocks_fromBlocks₁₂, toBlocks_fromBlocks₂₁, toBlocks_fromBlocks₂₂, transpose_smul, mul_smul_comm,
    smul_mul_assoc, smul_smul, transpose_add, smul_add]
  congr 1 <;> module

include hw hs hn

theorem x_M6 (beta : ℝ) : M6net (rod u R) e' phi beta = (M6net R e phi beta).map (mass6 u) := by
  have h0 := u_len (u := u)
  have hm : mass (rod u R) = u.mas * mass R := by
    unfold mass
    simp only [rod, Units.dens]
    field_simp
  have hi : inertiaCorrection (rod u R) = (inertiaCorrection R).map fun c => (u.mas * u.len ^ 2 * c.1, u.mas * u.len ^ 2 * c.2) := by
    unfold inertiaCorrection
    dsimp only
    rw [x_N, hm, x_d, x_L]
    split_ifs
    · simp
    · rfl
    · simp only [Option.map_some, Option.some.injEq, Prod.mk.injEq]
      constructor <;> ring
  unfold M6net
  rw [hi, x_N, Option.map_map, Option.map_map]
  congr 1
  funext c
  simp only [Function.comp_apply]
  rw [mass6_add, mass6_sum]
  congr 1
  · refine Finset.sum_congr rfl fun i hi => ?_
    rw [x_M hw hs (hn i (Nat.lt_succ_iff.1 (Finset.mem_range.1 hi))), x_r, x_r, ← smul_sub, translate_times]
  · unfold mass6 Imat rotateMass
    simp only [toBlocks_fromBlocks₁₁, toBlocks_fromBlocks₁₂, toBlocks_fromBlocks₂₁, toBlocks_fromBlocks₂₂, smul_zero]
    rw [← smul_mul_assoc, ← mul_smul_comm]
    congr 4
    ext i j
    fin_cases i <;> fin_cases j <;> simp

theorem x_centripetal (p w : V) : centripetal (rod u R) e' phi (u.len • p) ((1 / u.tim) • w) = u.force • centripetal R e phi p w := by
  unfold centripetal
  rw [x_N]
  split_ifs
  · rw [smul_zero]
  · rw [smul_neg, Finset.smul_sum]
    congr 1
    refine Finset.sum_congr rfl fun i hi => ?_
    rw [x_M hw hs (hn i (Nat.lt_succ_iff.1 (Finset.mem_range.1 hi))), x_r, ← smul_sub, twice, smul_mulVec, mulVec_smul, smul_smul]
    congr 1
    unfold Units.force Units.acc
    ring

omit hn

/-- C108: force, moment and mass matrix of a rod about any point, unless a section that reaches through the surface belongs to a rod
that is nearly but not quite vertical. -/
theorem C108_rod_partial (hR : Sheer R e) (rRef w : V) : getNetForceAndMass (rod u R) e' (u.len • rRef) ((1 / u.tim) • w) =
    (getNetForceAndMass R e rRef w).map (load u) := by
  have ha : angles (rod u R) = angles R := rfl
  unfold getNetForceAndMass
  rw [ha]
  cases hc : angles R with
  | none => rfl
  | some a =>
    have hn : ∀ i ≤ R.N, vof (rod u R) e' a.1 i = vof R e a.1 i := fun i hi => x_vof hw (hR a hc i hi)
    simp only [Option.bind_some]
    rw [x_M6 hw hs hn, Option.map_map, Option.map_map]
    congr 1
    funext M6
    simp only [Function.comp_apply, load]
    rw [x_F6 hw hs hn, x_centripetal hw hs hn, x_r, ← smul_sub, translate6_times, LinearMap.map_smul₂, map_smul, smul_smul, mul_comm u.len u.force,
      smul_add, smul_add]

omit hw hs

theorem mass6_mulVec (M : M6 ℝ) (a al : V) : mass6 u M *ᵥ Sum.elim (u.acc • a) ((1 / u.tim ^ 2) • al) =
    Sum.elim (u.force • ((M *ᵥ Sum.elim a al) ∘ Sum.inl)) ((u.force * u.len) • ((M *ᵥ Sum.elim a al) ∘ Sum.inr)) := by
  have h0 := u_len (u := u)
  have h1 := u_tim (u := u)
  have hM : M *ᵥ Sum.elim a al = Sum.elim (M.toBlocks₁₁ *ᵥ a + M.toBlocks₁₂ *ᵥ al) (M.toBlocks₂₁ *ᵥ a + M.toBlocks₂₂ *ᵥ al) := by
    conv_lhs => rw [← fromBlocks_toBlocks M, fromBlocks_mulVec]
    rfl
  rw [hM]
  unfold mass6
  rw [fromBlocks_mulVec]
  simp only [Sum.elim_comp_inl, Sum.elim_comp_inr, smul_mulVec, mulVec_smul, smul_smul, smul_add]
  have k1 : u.acc * u.mas = u.force := by
    unfold Units.force Units.acc
    ring
  have k2 : 1 / u.tim ^ 2 * (u.mas * u.len) = u.force := by
    unfold Units.force
    ring
  have k3 : u.acc * (u.mas * u.len) = u.force * u.len := by
    unfold Units.force Units.acc
    ring
  have k4 : 1 / u.tim ^ 2 * (u.mas * u.len ^ 2) = u.force * u.len := by
    unfold Units.force
    ring
  rw [k1, k2, k3, k4]

theorem solve_6 {M : M6 ℝ} {a al F Mo : V} (h : M *ᵥ Sum.elim a al = Sum.elim F Mo) :
    mass6 u M *ᵥ Sum.elim (u.acc • a) ((1 / u.tim ^ 2) • al) = Sum.elim (u.force • F) ((u.force * u.len) • Mo) := by
  rw [mass6_mulVec, h]
  rfl

include hw hs

/-- C108: the acceleration of a free rod. -/
theorem C108_rod_acc_partial (hR : Sheer R e) (a al : V) (hf : Rods.freeAcc R e a al) :
    Rods.freeAcc (rod u R) e' (u.acc • a) ((1 / u.tim ^ 2) • al) := by
  obtain ⟨F, Mo, M6, h1, h2⟩ := hf
  refine ⟨u.force • F, (u.force * u.len) • Mo, mass6 u M6, ?_, solve_6 h2⟩
  have := C108_rod_partial hw hs hR (Rods.r R 0) 0
  rw [smul_zero, ← x_r, h1] at this
  exact this

/-! ## Bodies -/

omit hw hs

theorem C108_body_point (p : Point) (rho g : ℝ) (rBody w : V) :
    (point u p).getNetForceAndMass (u.dens * rho) (u.acc * g) (u.len • rBody) ((1 / u.tim) • w) = load u (p.getNetForceAndMass rho g rBody w) := by
  have e1 : (point u p).r - u.len • rBody = u.len • (p.r - rBody) := (smul_sub _ _ _).symm
  unfold Point.getNetForceAndMass load
  dsimp only
  rw [C108_point, e1, twice, translate_times, LinearMap.map_smul₂, map_smul, smul_smul, smul_mulVec, mulVec_smul, smul_smul, smul_add, smul_neg,
    mul_comm u.len u.force]
  congr 4
  unfold Units.force Units.acc
  ring

theorem addAll_times (l : List (V × V × M6 ℝ)) (x : V × V × M6 ℝ) : addAll (l.map (load u)) (load u x) = load u (addAll l x) := by
  induction l generalizing x with
  | nil => rfl
  | cons y l ih =>
    rw [List.map_cons, addAll, addAll, ← ih]
    simp only [load, smul_add, mass6_add]

theorem b_ownM (B : Body) (rho : ℝ) : (body u B).ownM (u.dens * rho) = mass6 u (B.ownM rho) := by
  have h0 := u_len (u := u)
  have e1 : (body u B).M0 (u.dens * rho) = mass6 u (B.M0 rho) := by
    have a1 : (fromBlocks ((body u B).bodyM • 1) 0 0 (diagonal (body u B).bodyI) : M6 ℝ) =
        mass6 u (fromBlocks (B.bodyM • 1) 0 0 (diagonal B.bodyI)) := by
      unfold mass6
      simp only [toBlocks_fromBlocks₁₁, toBlocks_fromBlocks₁₂, toBlocks_fromBlocks₂₁, toBlocks_fromBlocks₂₂, smul_zero, ← diagonal_smul, smul_smul]
      rfl
    have a2 : (fromBlocks (((body u B).bodyV * (u.dens * rho)) • diagonal (body u B).Ca) 0 0
        (((body u B).bodyV * (u.dens * rho)) • diagonal (body u B).Car) : M6 ℝ) =
        mass6 u (fromBlocks ((B.bodyV * rho) • diagonal B.Ca) 0 0 ((B.bodyV * rho) • diagonal B.Car)) := by
      have k : (body u B).bodyV * (u.dens * rho) = u.mas * (B.bodyV * rho) := by
        simp only [body, Units.dens]
        field_simp
      have k2 : diagonal (body u B).Car = u.len ^ 2 • diagonal B.Car := diagonal_smul _ _
      rw [k, k2]
      unfold mass6
      simp only [toBlocks_fromBlocks₁₁, toBlocks_fromBlocks₁₂, toBlocks_fromBlocks₂₁, toBlocks_fromBlocks₂₂, smul_zero, smul_smul]
      congr 2
      ring
    have a3 : (body u B).body_rCG = u.len • B.body_rCG := rfl
    unfold Body.M0
    rw [a1, a2, a3, translate6_times, mass6_add]
  have e2 : (body u B).OrMat = B.OrMat := rfl
  unfold Body.ownM
  rw [e1, e2]
  unfold rotateMass6 rotateMass mass6
  simp only [toBlocks_fromBlocks₁₁, toBlocks_fromBlocks₁₂, toBlocks_fromBlocks₂₁, toBlocks_fromBlocks₂₂, mul_smul_comm, smul_mul_assoc, transpose_smul]

theorem b_ownF (B : Body) (rho g : ℝ) : (body u B).ownF (u.dens * rho) (u.acc * g) =
    (u.force • (B.ownF rho g).1, (u.force * u.len) • (B.ownF rho g).2) := by
  have h0 := u_len (u := u)
  have h1 := u_tim (u := u)
  have e1 : (body u B).Fgrav (u.dens * rho) (u.acc * g) = u.force • B.Fgrav rho g := by
    unfold Body.Fgrav
    simp only [smul_cons, smul_eq_mul, mul_zero, smul_empty]
    congr 3
    simp only [body, Units.dens, Units.acc, Units.force]
    field_simp
  have e2 : (body u B).rCG = u.len • B.rCG := mulVec_smul _ _ _
  have e3 : (body u B).w = (1 / u.tim) • B.w := rfl
  have e4 : (body u B).drag (u.dens * rho) = u.force • B.drag rho := by
    have a1 : (body u B).U - (body u B).v = u.vel • (B.U - B.v) := (smul_sub _ _ _).symm
    have a2 : diagonal (body u B).CdA = u.len ^ 2 • diagonal B.CdA := diagonal_smul _ _
    have a3 : (body u B).OrMat = B.OrMat := rfl
    unfold Body.drag
    dsimp only
    rw [a1, a2, a3, norm_times _ u_vel.le, mul_smul_comm, smul_mul_assoc, smul_mulVec, mulVec_smul, smul_smul, smul_smul, smul_smul]
    congr 1
    simp only [Units.dens, Units.vel, Units.force]
    field_simp
  have e5 : (body u B).dragMoment (u.dens * rho) = (u.force * u.len) • B.dragMoment rho := by
    have a1 : -((1 / u.tim) • B.w) = (1 / u.tim) • -B.w := (smul_neg _ _).symm
    have a2 : diagonal (body u B).CdAr = u.len ^ 5 • diagonal B.CdAr := diagonal_smul _ _
    have a3 : (body u B).OrMat = B.OrMat := rfl
    unfold Body.dragMoment
    rw [e3, a1, a2, a3, norm_times _ (one_div_pos.2 u.tim_pos).le, mul_smul_comm, smul_mul_assoc, smul_mulVec, mulVec_smul, smul_smul, smul_smul, smul_smul]
    congr 1
    simp only [Units.dens, Units.force]
    field_simp
  unfold Body.ownF
  rw [e1, e2, e3, e4, e5, b_ownM, twice, LinearMap.map_smul₂, map_smul, smul_smul, mul_comm u.len u.force, smul_add, smul_add, smul_sub]
  congr 3
  unfold mass6
  rw [toBlocks_fromBlocks₁₁, smul_mulVec, mulVec_smul, smul_smul]
  congr 1
  unfold Units.force Units.acc
  ring

include hs

/-- C108: force, moment and mass matrix of a body with points and rods; the water at
the nodes of the rods is given by one environment, as in `Body.doRHS`. -/
theorem C108_body_partial (B : Body) (points : List Point) (rods : List Rod) (hw : SameWater u e e') (hR : ∀ R ∈ rods, Sheer R e) :
    (body u B).doRHS e' (points.map (point u)) (rods.map (rod u)) = (B.doRHS e points rods).map (load u) := by
  have e1 : (body u B).pos = u.len • B.pos := rfl
  have e2 : (body u B).w = (1 / u.tim) • B.w := rfl
  unfold Body.doRHS
  dsimp only
  rw [e1, e2, hs.rho_w, hs.g, b_ownF, b_ownM]
  have h1 : (points.map (point u)).map (fun p => p.getNetForceAndMass (u.dens * e.rho_w) (u.acc * e.g) (u.len • B.pos) ((1 / u.tim) • B.w)) =
      (points.map fun p => p.getNetForceAndMass e.rho_w e.g B.pos B.w).map (load u) := by
    simp only [List.map_map]
    exact List.map_congr_left fun p _ => C108_body_point p _ _ _ _
  have h2 : ((rods.map (rod u)).mapM fun R => getNetForceAndMass R e' (u.len • B.pos) ((1 / u.tim) • B.w)) =
      ((rods.mapM fun R => getNetForceAndMass R e B.pos B.w).map (List.map (load u))) := by
    clear h1
    induction rods with
    | nil => rfl
    | cons R rods ih =>
      rw [List.map_cons, List.mapM_cons, List.mapM_cons, C108_rod_partial hw hs (hR R (by simp)), ih fun R' hR' => hR R' (by simp [hR'])]
      cases getNetForceAndMass R e B.pos B.w with
      | none => rfl
      | some x =>
        cases rods.mapM fun R => getNetForceAndMass R e B.pos B.w with
        | none => rfl
        | some l => rfl
  rw [h1, h2, Option.map_map, Option.map_map]
  congr 1
  funext l
  simp only [Function.comp_apply]
  rw [← addAll_times, ← addAll_times]
  rfl

/-- C108: the acceleration of a free body. -/
theorem C108_body_acc_partial (B : Body) (points : List Point) (rods : List Rod) (hw : SameWater u e e') (hR : ∀ R ∈ rods, Sheer R e) (a al : V)
    (hf : B.freeAcc e points rods a al) :
    (body u B).freeAcc e' (points.map (point u)) (rods.map (rod u)) (u.acc • a) ((1 / u.tim ^ 2) • al) := by
  obtain ⟨F, Mo, M6, h1, h2⟩ := hf
  refine ⟨u.force • F, (u.force * u.len) • Mo, mass6 u M6, ?_, solve_6 h2⟩
  rw [C108_body_partial hs B points rods hw hR, h1]
  rfl

omit hs

/-! ## Cases -/

/-- A rod of the diameter `k` that leans by one in two thousand, with its lower end at the surface of the water. -/
noncomputable def stake (k : ℝ) : Rod :=
  ⟨1, k, 500, 1, 0, 1, 1, 1, k * 4, 0, ![1 / 2000, 0, Real.sqrt (1 - 1 / 2000 ^ 2)], 0, 0, [], []⟩

/-- Still water. -/
noncomputable def pond : Env := ⟨1025, 98 / 10, 10 ^ 5, 10 ^ 4, 0, 0, 0, fun _ _ => -50, fun _ => 0, fun _ => 0, fun _ => 0, fun _ => 0⟩

/-- Half a metre is the unit of length, an eighth of a kilogram that of mass. -/
noncomputable def halves : Units := ⟨2, 1, 8, by norm_num, by norm_num, by norm_num⟩

theorem stake_unit (k : ℝ) : (stake k).q ⬝ᵥ (stake k).q = 1 := by
  have : Real.sqrt (1 - 1 / 2000 ^ 2) * Real.sqrt (1 - 1 / 2000 ^ 2) = 1 - 1 / 2000 ^ 2 := Real.mul_self_sqrt (by norm_num)
  simp only [stake, dotProduct, Fin.sum_univ_three]
  show 1 / 2000 * (1 / 2000) + 0 * 0 + Real.sqrt (1 - 1 / 2000 ^ 2) * Real.sqrt (1 - 1 / 2000 ^ 2) = (1 : ℝ)
  rw [this]
  norm_num

theorem stake_angle : ∃ a, angles (stake 1) = some a ∧ Real.sin a.1 = 1 / 2000 := by
  have h1 : ∃ a, angles (stake 1) = some a := by
    have hN : (stake 1).N = 1 := rfl
    unfold angles orientationAngles
    rw [hN, if_neg one_ne_zero, stake_unit, if_neg (by norm_num)]
    exact ⟨_, rfl⟩
  obtain ⟨a, ha⟩ := h1
  refine ⟨a, ha, ?_⟩
  have h2 : orientationAngles (stake 1).q = some a := by
    have hN : (stake 1).N = 1 := rfl
    unfold angles at ha
    rwa [hN, if_neg one_ne_zero] at ha
  have hl : Real.sqrt ((stake 1).q 0 * (stake 1).q 0 + (stake 1).q 1 * (stake 1).q 1) = 1 / 2000 := by
    have : (stake 1).q 0 * (stake 1).q 0 + (stake 1).q 1 * (stake 1).q 1 = (1 / 2000) * (1 / 2000) := by
      simp [stake]
    rw [this, Real.sqrt_mul_self (by norm_num)]
  have h3 := (Frame.angles_dir h2 (.inr (by rw [hl]; norm_num))).2.2.1
  rw [stake_unit, Real.sqrt_one, one_mul, hl] at h3
  exact h3

theorem stake_out {k phi : ℝ} (hk : 0 < k) (e : Env) (he : e.zeta = fun _ => 0) (hs : Real.sin phi = 1 / 2000) :
    outSub (stake k) e phi = 1 / (4000000 * (Real.pi * k ^ 2)) := by
  have hN : (stake k).N = 1 := rfl
  have hz : zetaI (stake k) e = 0 := by
    unfold zetaI
    rw [he]
  have hc : 1 / 2 < Real.sqrt (1 - 1 / 2000 ^ 2) := Real.lt_sqrt_of_sq_lt (by norm_num)
  have r0 : Rods.r (stake k) 0 2 = 0 := by
    unfold Rods.r
    simp [stake]
  have r1 : Rods.r (stake k) 1 2 = k * 4 * Real.sqrt (1 - 1 / 2000 ^ 2) := by
    unfold Rods.r
    simp [stake]
  generalize Real.sqrt (1 - 1 / 2000 ^ 2) = c at *
  have hr : 2 * k < k * 4 * c := by nlinarith
  have hl : dL (stake k) 0 = 2 * k ∧ dL (stake k) 1 = 2 * k := by
    constructor <;> simp [dL, Rods.l, stake] <;> ring
  have hh : h0 (stake k) e = 0 := by
    unfold h0
    dsimp only
    rw [hN, r0, r1, hz, if_neg (by simp), if_neg (by simp), if_neg (by
      rintro ⟨h, -⟩
      linarith)]
  have hd : (stake k).d = k := rfl
  have v0 : vof (stake k) e phi 0 = 1 / (2000000 * (Real.pi * k ^ 2)) := by
    unfold vof
    rw [hh, hl.1, r0, hz, hs]
    have c1 : vof0 0 (Lsum (stake k) 0) (2 * k) = 0 := by
      unfold vof0 Lsum
      rw [if_neg (lt_irrefl _), if_neg (by linarith), if_neg (lt_irrefl _)]
    have c2 : crossSection (stake k) 0 0 (1 / 2000) = (1 / 2, 0) := by
      unfold crossSection z1lo z1hi
      rw [hd, if_neg, if_neg, if_pos]
      · rw [abs_of_pos (by norm_num)]
        norm_num
      · rw [abs_of_pos (by norm_num)]
        intro h
        nlinarith
      · rw [abs_of_pos (by norm_num)]
        intro h
        nlinarith
    rw [c1, c2, hd]
    have := Real.pi_pos.ne'
    have := hk.ne'
    field_simp
    norm_num
  have v1 : vof (stake k) e phi 1 = 0 := by
    unfold vof
    rw [hh, hl.2, r1, hz, hs]
    have c1 : vof0 0 (Lsum (stake k) 1) (2 * k) = 0 := by
      have : Lsum (stake k) 1 = 2 * k := by
        rw [Lsum, Lsum, hl.1, zero_add]
      unfold vof0
      rw [this, if_neg (lt_irrefl _), if_neg (by linarith), if_neg (by linarith)]
    have c2 : (crossSection (stake k) (k * 4 * c) 0 (1 / 2000)).1 = 0 := by
      unfold crossSection z1lo
      rw [hd, if_pos]
      rw [abs_of_pos (by norm_num)]
      nlinarith
    rw [c1, c2]
    simp
  unfold outSub
  rw [hN, Finset.sum_range_succ, Finset.sum_range_one, v0, v1]
  have := Real.pi_pos.ne'
  have := hk.ne'
  push_cast
  field_simp
  norm_num

/-- C108: where a section of a rod reaches through the surface and the rod is nearly vertical, half a square metre is taken for the area under
water (source/Rod.cpp:1009-1012), whatever the units: in units of half a metre the same rod is reported to be submerged by a quarter of what
it is reported to be in metres. -/
theorem C108_rod_false : ∃ (u : Units) (R : Rod) (e e' : Env) (a : ℝ × ℝ), SameWater u e e' ∧ SameSea u e e' ∧ R.q ⬝ᵥ R.q = 1 ∧ angles R = some a ∧
    angles (rod u R) = some a ∧ 0 < outSub R e a.1 ∧ outSub (rod u R) e' a.1 = outSub R e a.1 / 4 := by
  obtain ⟨a, ha, hs⟩ := stake_angle
  have e1 : rod halves (stake 1) = stake 2 := by
    have : halves.dens = 1 := by norm_num [Units.dens, halves]
    unfold rod
    rw [this]
    simp [stake, halves]
  refine ⟨halves, stake 1, pond, sea halves pond, a, ⟨?_, ?_, ?_, ?_⟩, ⟨rfl, rfl, rfl, rfl, rfl, rfl, rfl, ?_⟩, stake_unit 1, ha, ha, ?_, ?_⟩
  · intro j
    simp [sea, pond]
  · intro j
    simp [sea, pond]
  · intro j
    simp [sea, pond]
  · intro j
    simp [sea, pond]
  · intro x y
    simp [sea, pond]
  · rw [stake_out one_pos pond rfl hs]
    have := Real.pi_pos
    positivity
  · rw [e1, stake_out one_pos pond rfl hs, stake_out two_pos (sea halves pond) rfl hs]
    have := Real.pi_pos.ne'
    field_simp
    norm_num

/-- A rod that lies in the water. -/
noncomputable def beam : Rod := ⟨4, 1 / 2, 500, 1, 0, 1, 1, 1, 4, ![0, 0, -2], ![3 / 5, 0, 4 / 5], ![1, 0, 0], ![0, 1 / 10, 0], [], []⟩

/-- The hypotheses of `C108_rod_partial` and `C108_body_partial` for an inclined rod that reaches through the surface. -/
example : Sheer beam pond ∧ SameSea halves pond (sea halves pond) ∧ SameWater halves pond (sea halves pond) ∧
    Rods.r beam 0 2 < zetaI beam pond ∧ zetaI beam pond < Rods.r beam 4 2 ∧ ∃ a, angles beam = some a := by
  have hN : beam.N = 4 := rfl
  have hu : beam.q ⬝ᵥ beam.q = 1 := by
    simp [beam, dotProduct, Fin.sum_univ_three]
    norm_num
  refine ⟨?_, ⟨rfl, rfl, rfl, rfl, rfl, rfl, rfl, fun x y => by simp [sea, pond]⟩, ⟨fun j => by simp [sea, pond], fun j => by simp [sea, pond],
    fun j => by simp [sea, pond], fun j => by simp [sea, pond]⟩, ?_, ?_, ?_⟩
  · intro a ha i _ hs
    exfalso
    have h2 : orientationAngles beam.q = some a := by
      unfold angles at ha
      rwa [hN, if_neg (by norm_num)] at ha
    have hl : Real.sqrt (beam.q 0 * beam.q 0 + beam.q 1 * beam.q 1) = 3 / 5 := by
      have : beam.q 0 * beam.q 0 + beam.q 1 * beam.q 1 = (3 / 5) * (3 / 5) := by
        simp [beam]
      rw [this, Real.sqrt_mul_self (by norm_num)]
    have h3 := (Frame.angles_dir h2 (.inr (by rw [hl]; norm_num))).2.2.1
    rw [hu, Real.sqrt_one, one_mul, hl] at h3
    rw [h3, abs_of_pos (by norm_num)] at hs
    norm_num at hs
  · simp [Rods.r, beam, zetaI, pond]
  · simp [Rods.r, beam, zetaI, pond]
    norm_num
  · unfold angles orientationAngles
    rw [hN, if_neg (by norm_num), hu, if_neg (by norm_num)]
    exact ⟨_, rfl⟩

end MD.Units
