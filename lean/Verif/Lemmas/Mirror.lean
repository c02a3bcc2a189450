import Verif.Spec.Mirror
import Verif.Props.FrameMotion

/-!
# Rods, points and bodies in a mirror

The lemmas of `Verif.Props.FrameRigid` for turns and reflections: angular velocities and moments are multiplied by the determinant.
-/

set_option linter.unusedSimpArgs false
set_option linter.unusedSectionVars false
set_option linter.unusedVariables false

namespace MD.Frame

open Matrix MD.Mat MD.Mooring MD.Rods MD.Bodies MD.Rot

variable (o : Turn) (d : V)

/-- The same rod. -/
noncomputable def rodS (R : Rod) : Rod := rod o d { R with w := o.Q.det • R.w }

theorem axial_cross (w x : V) : (axialV o w) ⨯₃ (o.Q *ᵥ x) = o.Q *ᵥ (w ⨯₃ x) := by
  unfold axialV
  rw [LinearMap.map_smul₂, cross, smul_smul, det_sq, one_smul]

theorem axialV_add (a b : V) : axialV o (a + b) = axialV o a + axialV o b := by
  unfold axialV
  rw [mulVec_add, smul_add]

theorem axialV_neg (a : V) : axialV o (-a) = -axialV o a := by
  unfold axialV
  rw [mulVec_neg, smul_neg]

theorem axialV_zero : axialV o 0 = 0 := by
  unfold axialV
  rw [mulVec_zero, smul_zero]

theorem getH_axial (r : V) : getH (o.Q *ᵥ r) = o.Q.det • (o.Q * getH r * o.Qᵀ) := by
  have hH : ∀ c w : V, getH c *ᵥ w = w ⨯₃ c := by
    intro c w
    ext i
    fin_cases i <;> simp [getH, cross_apply, mulVec, dotProduct, Fin.sum_univ_three] <;> ring
  have key : getH (o.Q *ᵥ r) * o.Q = o.Q.det • (o.Q * getH r) := by
    apply Matrix.ext_of_mulVec_single
    intro i
    rw [← mulVec_mulVec, smul_mulVec, ← mulVec_mulVec, hH, hH, cross o]
  rw [← smul_mul_assoc, ← key, mul_assoc, orth', mul_one]

theorem massS_blocks (A B C D : M3 ℝ) : massS o (fromBlocks A B C D) =
    fromBlocks (o.Q * A * o.Qᵀ) (o.Q.det • (o.Q * B * o.Qᵀ)) (o.Q.det • (o.Q * C * o.Qᵀ)) (o.Q * D * o.Qᵀ) := by
  unfold massS
  simp [fromBlocks_transpose, fromBlocks_multiply, smul_smul, det_sq]

theorem massS_add (A B : M6 ℝ) : massS o (A + B) = massS o A + massS o B := by
  unfold massS
  rw [mul_add, add_mul]

theorem massS_eq (M : M6 ℝ) : massS o M = fromBlocks (o.Q * M.toBlocks₁₁ * o.Qᵀ) (o.Q.det • (o.Q * M.toBlocks₁₂ * o.Qᵀ))
    (o.Q.det • (o.Q * M.toBlocks₂₁ * o.Qᵀ)) (o.Q * M.toBlocks₂₂ * o.Qᵀ) := by
  rw [← massS_blocks, fromBlocks_toBlocks]

theorem translate_axial (r : V) (M : M3 ℝ) : translateMass (o.Q *ᵥ r) (o.Q * M * o.Qᵀ) = massS o (translateMass r M) := by
  unfold translateMass
  dsimp only
  rw [getH_axial, massS_blocks]
  simp only [conj_transpose, conj_mul, transpose_smul, smul_mul_assoc, mul_smul_comm, smul_smul, det_sq, one_smul]

theorem translate6_axial (r : V) (M : M6 ℝ) : translateMass6 (o.Q *ᵥ r) (massS o M) = massS o (translateMass6 r M) := by
  unfold translateMass6
  dsimp only
  rw [getH_axial, massS_blocks, massS_eq]
  simp only [toBlocks_fromBlocks₁₁, toBlocks_fromBlocks₁₂, toBlocks_fromBlocks₂₁, toBlocks_fromBlocks₂₂,
    conj_transpose, conj_mul, mul_add, add_mul, transpose_add, transpose_smul, smul_mul_assoc, mul_smul_comm, smul_smul, det_sq, one_smul, smul_add]

theorem massS_mulVec (M : M6 ℝ) (a b : V) : massS o M *ᵥ Sum.elim (o.Q *ᵥ a) (axialV o b) =
    Sum.elim (o.Q *ᵥ ((M *ᵥ Sum.elim a b) ∘ Sum.inl)) (axialV o ((M *ᵥ Sum.elim a b) ∘ Sum.inr)) := by
  have e1 : Sum.elim (o.Q *ᵥ a) (axialV o b) = fromBlocks o.Q 0 0 (o.Q.det • o.Q) *ᵥ Sum.elim a b := by
    rw [fromBlocks_mulVec]
    simp [axialV, smul_mulVec]
  rw [e1]
  unfold massS
  have e2 : (fromBlocks o.Q 0 0 (o.Q.det • o.Q))ᵀ * fromBlocks o.Q 0 0 (o.Q.det • o.Q) = (1 : M6 ℝ) := by
    simp [fromBlocks_transpose, fromBlocks_multiply, o.orth, smul_smul, det_sq]
  rw [mulVec_mulVec, mul_assoc, e2, mul_one, ← mulVec_mulVec]
  rw [fromBlocks_mulVec]
  simp [axialV, smul_mulVec]

theorem inv6_axial (M : M6 ℝ) : (massS o M)⁻¹ = massS o M⁻¹ := by
  unfold massS
  have e2 : (fromBlocks o.Q 0 0 (o.Q.det • o.Q))ᵀ * fromBlocks o.Q 0 0 (o.Q.det • o.Q) = (1 : M6 ℝ) := by
    simp [fromBlocks_transpose, fromBlocks_multiply, o.orth, smul_smul, det_sq]
  generalize fromBlocks o.Q 0 0 (o.Q.det • o.Q) = A at *
  have e : Aᵀ = A⁻¹ := (inv_eq_left_inv e2).symm
  have hA : IsUnit A.det := by
    have := congrArg Matrix.det e2
    rw [Matrix.det_mul, Matrix.det_one, Matrix.det_transpose] at this
    exact IsUnit.of_mul_eq_one _ this
  rw [Matrix.mul_inv_rev, Matrix.mul_inv_rev, e, nonsing_inv_nonsing_inv _ hA, mul_assoc]

/-- Points of bodies. -/
theorem body_point_axial (p : Point) (rho_w g : ℝ) (rBody w : V) :
    (point o d p).getNetForceAndMass rho_w g (o.Q *ᵥ rBody + d) (axialV o w) = loadS o (p.getNetForceAndMass rho_w g rBody w) := by
  unfold Point.getNetForceAndMass loadS
  dsimp only
  rw [C99_point]
  have e : (point o d p).r - (o.Q *ᵥ rBody + d) = o.Q *ᵥ (p.r - rBody) := by
    show o.Q *ᵥ p.r + d - _ = _
    rw [mulVec_sub]
    abel
  rw [e]
  simp only [axial_cross, translate_axial, mulVec_add, mulVec_neg, mulVec_mulVec]
  rw [mul_assoc (o.Q * _), o.orth, mul_one, cross]
  rfl

/-! ## Rods -/

variable (R : Rod)

theorem rodS_rd (i : ℕ) : Rods.rd (rodS o d R) i = o.Q *ᵥ Rods.rd R i := by
  unfold Rods.rd
  have hN : (rodS o d R).N = R.N := rfl
  have h1 : (rodS o d R).vA = o.Q *ᵥ R.vA := rfl
  have h2 : (rodS o d R).q = o.Q *ᵥ R.q := rfl
  have h3 : (rodS o d R).UnstrLen = R.UnstrLen := rfl
  have h4 : (rodS o d R).w = axialV o R.w := by
    show o.Q *ᵥ (o.Q.det • R.w) = _
    rw [mulVec_smul]
    rfl
  have h5 : (axialV o R.w) ⨯₃ (R.UnstrLen • o.Q *ᵥ R.q) = o.Q *ᵥ (R.w ⨯₃ (R.UnstrLen • R.q)) := by
    rw [← mulVec_smul, axial_cross]
  dsimp only
  rw [hN, h1, h2, h3, h4, h5]
  split_ifs <;> simp only [mulVec_add, mulVec_smul, mulVec_sub]

variable {e e' : Env} (h : Seen o d e e')
include h

theorem rodS_vi (i : ℕ) : vi (rodS o d R) e' i = o.Q *ᵥ vi R e i := by
  unfold vi
  rw [h.sea.U, rodS_rd, mulVec_sub]

theorem rodS_vq (i : ℕ) : Rods.vq (rodS o d R) e' i = o.Q *ᵥ Rods.vq R e i := by
  unfold Rods.vq
  rw [rodS_vi o d R h]
  show (_ ⬝ᵥ (o.Q *ᵥ R.q)) • (o.Q *ᵥ R.q) = _
  rw [dot, mulVec_smul]

theorem rodS_vp (i : ℕ) : Rods.vp (rodS o d R) e' i = o.Q *ᵥ Rods.vp R e i := by
  unfold Rods.vp
  rw [rodS_vi o d R h, rodS_vq o d R h, mulVec_sub]

omit h in
theorem Lsum_spin (c : V) (i : ℕ) : Lsum { R with w := c } i = Lsum R i := by
  induction i with
  | zero => rfl
  | succ i ih => exact congrArg (· + dL R i) ih

omit h in
theorem vof_spin (c : V) (phi : ℝ) (i : ℕ) : vof { R with w := c } e phi i = vof R e phi i := by
  unfold vof
  rw [Lsum_spin]
  rfl

omit h in
theorem endWet_spin (c : V) (phi : ℝ) (i : ℕ) : endWet { R with w := c } e phi i = endWet R e phi i := rfl

theorem rodS_vof (phi : ℝ) (i : ℕ) : vof (rodS o d R) e' phi i = vof R e phi i :=
  (rod_vof o d { R with w := o.Q.det • R.w } h phi i).trans (vof_spin R _ phi i)

theorem rodS_wet (phi : ℝ) (i : ℕ) : endWet (rodS o d R) e' phi i = endWet R e phi i := rod_wet o d { R with w := o.Q.det • R.w } h phi i

omit h in
open Classical in
theorem M_spin (c : V) (phi : ℝ) (i : ℕ) : Rods.M { R with w := c } e phi i = Rods.M R e phi i := by
  unfold Rods.M addedM
  rw [vof_spin]
  rfl

omit h in
open Classical in
theorem Bo_spin (c : V) (phi b : ℝ) (i : ℕ) : Bo { R with w := c } e phi b i = Bo R e phi b i := by
  unfold Bo BoSide BoA BoB
  rw [vof_spin]
  rfl

theorem rodS_M (phi : ℝ) (i : ℕ) : Rods.M (rodS o d R) e' phi i = o.Q * Rods.M R e phi i * o.Qᵀ := by
  rw [← M_spin R (o.Q.det • R.w)]
  exact rod_M o d { R with w := o.Q.det • R.w } h phi i

theorem rodS_r (i : ℕ) : Rods.r (rodS o d R) i = o.Q *ᵥ Rods.r R i + d := rod_r o d { R with w := o.Q.det • R.w } i

theorem rodS_r2 (i : ℕ) : Rods.r (rodS o d R) i 2 = Rods.r R i 2 := rod_r2 o d { R with w := o.Q.det • R.w } h i

theorem rodS_zeta : zetaI (rodS o d R) e' = zetaI R e := rod_zeta o d { R with w := o.Q.det • R.w } h

theorem rodS_aq (i : ℕ) : Rods.aq (rodS o d R) e' i = o.Q *ᵥ Rods.aq R e i := rod_aq o d { R with w := o.Q.det • R.w } h i

theorem rodS_ap (i : ℕ) : Rods.ap (rodS o d R) e' i = o.Q *ᵥ Rods.ap R e i := rod_ap o d { R with w := o.Q.det • R.w } h i

theorem rodS_W (i : ℕ) : Rods.W (rodS o d R) e' i = o.Q *ᵥ Rods.W R e i := rod_W o d { R with w := o.Q.det • R.w } h i

open Classical in
theorem rodS_drag (phi : ℝ) (i : ℕ) :
    Rods.Dp (rodS o d R) e' phi i = o.Q *ᵥ Rods.Dp R e phi i ∧
    Rods.Dq (rodS o d R) e' phi i = o.Q *ᵥ Rods.Dq R e phi i ∧
    Rods.Ap (rodS o d R) e' phi i = o.Q *ᵥ Rods.Ap R e phi i ∧
    Rods.Aq (rodS o d R) e' phi i = o.Q *ᵥ Rods.Aq R e phi i ∧
    Pd (rodS o d R) e' phi i = o.Q *ᵥ Pd R e phi i := by
  have e1 : (rodS o d R).q = o.Q *ᵥ R.q := rfl
  have e2 : (rodS o d R).N = R.N := rfl
  have e3 : (rodS o d R).Can = R.Can := rfl
  have e4 : (rodS o d R).Cdn = R.Cdn := rfl
  have e5 : (rodS o d R).CaEnd = R.CaEnd := rfl
  have e6 : Rods.v (rodS o d R) i = Rods.v R i := rfl
  have e7 : VEnd (rodS o d R) = VEnd R := rfl
  have e8 : (rodS o d R).d = R.d := rfl
  have e9 : dL (rodS o d R) i = dL R i := rfl
  have e10 : area (rodS o d R) = area R := rfl
  have e11 : (rodS o d R).CdEnd = R.CdEnd := rfl
  refine ⟨?_, ?_, ?_, ?_, ?_⟩
  · unfold Rods.Dp
    rw [e2, e4, e8, e9, rodS_vof o d R h, h.sea.rho_w, rodS_vp o d R h, norm_turn]
    split_ifs
    · rw [mulVec_zero]
    · rw [mulVec_smul]
  · have ea : ∀ (R : Rod) (e : Env), Rods.Dq R e phi i =
        (if i = 0 ∧ endWet R e phi i then
          (1 / 2 * vof R e phi i * area R * e.rho_w * R.CdEnd * Mooring.norm (Rods.vq R e i)) •
            Rods.vq R e i else 0)
        + (if i = R.N ∧ endWet R e phi i then
          (1 / 2 * vof R e phi i * area R * e.rho_w * R.CdEnd * Mooring.norm (Rods.vq R e i)) •
            Rods.vq R e i else 0) := fun _ _ => rfl
    rw [ea, ea, rodS_wet o d R h, rodS_vof o d R h, e2, e10, e11, h.sea.rho_w, rodS_vq o d R h, norm_turn,
      mulVec_add]
    split_ifs <;> simp [mulVec_smul]
  · unfold Rods.Ap
    rw [e2, e3, e6, rodS_vof o d R h, h.sea.rho_w, rodS_ap o d R h]
    split_ifs
    · rw [mulVec_zero]
    · rw [mulVec_smul]
  · have ea : ∀ (R : Rod) (e : Env), Rods.Aq R e phi i =
        (if i = 0 ∧ endWet R e phi i then
          (vof R e phi i * e.rho_w * R.CaEnd * VEnd R) • Rods.aq R e i else 0)
        + (if i = R.N ∧ endWet R e phi i then
          (vof R e phi i * e.rho_w * R.CaEnd * VEnd R) • Rods.aq R e i else 0) := fun _ _ => rfl
    rw [ea, ea, rodS_wet o d R h, rodS_vof o d R h, e2, e5, e7, h.sea.rho_w, rodS_aq o d R h, mulVec_add]
    split_ifs <;> simp [mulVec_smul]
  · have ea : ∀ (R : Rod) (e : Env), Pd R e phi i =
        (if i = 0 ∧ endWet R e phi i then (vof R e phi i * area R * e.pdyn i) • R.q else 0)
        + (if i = R.N ∧ endWet R e phi i then (-vof R e phi i * area R * e.pdyn i) • R.q else 0) :=
      fun _ _ => rfl
    rw [ea, ea, rodS_wet o d R h, rodS_vof o d R h, e1, e2, e10, h.sea.pdyn, mulVec_add]
    split_ifs <;> simp [mulVec_smul, mulVec_neg]

theorem rodS_B (i : ℕ) : Rods.B (rodS o d R) e' i = o.Q *ᵥ Rods.B R e i := by
  unfold Rods.B
  dsimp only
  rw [rodS_r2 o d R h, rodS_rd o d, z, h.sea.kb, h.sea.cb]
  have hw : e'.waterDepth (Rods.r (rodS o d R) i 0) (Rods.r (rodS o d R) i 1) =
      e.waterDepth (Rods.r R i 0) (Rods.r R i 1) := by
    rw [rodS_r o d R h]
    exact h.sea.waterDepth _
  rw [hw]
  have e2 : (rodS o d R).N = R.N := rfl
  have e8 : (rodS o d R).d = R.d := rfl
  have e9 : dL (rodS o d R) i = dL R i := rfl
  rw [e2, e8, e9]
  split_ifs <;> simp only [mulVec_zero, vert]

variable {a : ℝ × ℝ} {b : ℝ} (hb : dir (a.1, b) = o.Q *ᵥ dir a)
include hb

theorem rodS_Fnet (i : ℕ) : Rods.Fnet (rodS o d R) e' a.1 b i = o.Q *ᵥ Rods.Fnet R e a.1 a.2 i := by
  have hl : lineF (rodS o d R) i = o.Q *ᵥ lineF R i := by
    unfold lineF
    have e1 : (rodS o d R).attachedA = R.attachedA.map (stuff o) := rfl
    have e2 : (rodS o d R).attachedB = R.attachedB.map (stuff o) := rfl
    have e3 : (rodS o d R).N = R.N := rfl
    rw [e1, e2, e3, (sum_stuff o _).1, (sum_stuff o _).1, mulVec_add]
    split_ifs <;> simp
  obtain ⟨h1, h2, h3, h4, h5⟩ := rodS_drag o d R h a.1 i
  have h6 : Bo (rodS o d R) e' a.1 b i = o.Q *ᵥ Bo R e a.1 a.2 i := by
    rw [← Bo_spin R (o.Q.det • R.w)]
    exact rod_Bo o d { R with w := o.Q.det • R.w } h hb i
  unfold Rods.Fnet
  rw [rodS_W o d R h, h6, h1, h2, h3, h4, h5, rodS_B o d R h, hl]
  simp only [mulVec_add]

open Classical in
theorem rodS_Mext : Mext (rodS o d R) e' a.1 b = axialV o (Mext R e a.1 a.2) := by
  have e2 : (rodS o d R).N = R.N := rfl
  have e8 : (rodS o d R).d = R.d := rfl
  have hx : (![0, 0, 1] : V) ⨯₃ dir (a.1, b) = axialV o ((![0, 0, 1] : V) ⨯₃ dir a) := by
    rw [hb]
    unfold axialV
    rw [← cross, o.up]
  have t1 := fun k => turned_eq k (a.1, b)
  dsimp only at t1
  have t2 := fun k => turned_eq k a
  have sm : ∀ (c : ℝ) (v : V), c • axialV o v = axialV o (c • v) := by
    intro c v
    unfold axialV
    rw [mulVec_smul, smul_comm]
  have h1 : MextCap (rodS o d R) e' a.1 b = axialV o (MextCap R e a.1 a.2) := by
    have ea : ∀ (R : Rod) (e : Env) (a : ℝ × ℝ), MextCap R e a.1 a.2 =
        (if endWet R e a.1 0 then
          (vof R e a.1 0 * 1 / 64 * Real.pi * R.d * R.d * R.d * R.d * e.rho_w * e.g) •
            ((![0, 0, 1] : V) ⨯₃ dir a) else 0)
        + (if endWet R e a.1 R.N then
          (-(vof R e a.1 R.N * 1 / 64 * Real.pi * R.d * R.d * R.d * R.d * e.rho_w * e.g)) •
            ((![0, 0, 1] : V) ⨯₃ dir a) else 0) := by
      intro R e a
      rw [← turned_eq, ← turned_eq]
      unfold MextCap
      dsimp only
      congr 2
      ext i
      fin_cases i <;> simp
    have eb := ea (rodS o d R) e' (a.1, b)
    dsimp only at eb
    rw [eb, ea, rodS_wet o d R h, rodS_wet o d R h, rodS_vof o d R h, rodS_vof o d R h, e2, e8, h.sea.rho_w,
      h.sea.g, hx, axialV_add]
    split_ifs <;> simp only [sm, axialV_zero]
  have h2 : MextWater (rodS o d R) e' a.1 b = axialV o (MextWater R e a.1 a.2) := by
    have ea : ∀ (R : Rod) (e : Env) (a : ℝ × ℝ), MextWater R e a.1 a.2 =
        if Rods.r R 0 2 < zetaI R e ∧ Rods.r R R.N 2 > zetaI R e then
          (-(1 / 16 * Real.pi * R.d * R.d * R.d * R.d * e.rho_w * e.g * Real.cos a.1)) •
            ((![0, 0, 1] : V) ⨯₃ dir a) else 0 := by
      intro R e a
      rw [← turned_eq]
      unfold MextWater
      congr 1
      ext i
      fin_cases i <;> simp <;> left <;> ring
    have eb := ea (rodS o d R) e' (a.1, b)
    dsimp only at eb
    rw [eb, ea, rodS_r2 o d R h, rodS_r2 o d R h, rodS_zeta o d R h, e2, e8, h.sea.rho_w, h.sea.g, hx]
    split_ifs <;> simp only [sm, axialV_zero]
  have h3 : MextLine (rodS o d R) = axialV o (MextLine R) := by
    unfold MextLine
    have e1 : (rodS o d R).attachedA = R.attachedA.map (stuff o) := rfl
    have e3 : (rodS o d R).attachedB = R.attachedB.map (stuff o) := rfl
    rw [e1, e3, (sum_stuff o _).2.1, (sum_stuff o _).2.1, axialV_add]
    rfl
  unfold Mext
  rw [h1, h2, h3, axialV_add, axialV_add]

theorem rodS_F6 : F6net (rodS o d R) e' a.1 b = (o.Q *ᵥ (F6net R e a.1 a.2).1, axialV o (F6net R e a.1 a.2).2) := by
  unfold F6net
  have e2 : (rodS o d R).N = R.N := rfl
  have er : ∀ i, Rods.r (rodS o d R) i - Rods.r (rodS o d R) 0 = o.Q *ᵥ (Rods.r R i - Rods.r R 0) := by
    intro i
    rw [rodS_r o d R h, rodS_r o d R h, mulVec_sub]
    abel
  rw [e2, rodS_Mext o d R h hb]
  simp only [rodS_Fnet o d R h hb, er, cross o]
  apply Prod.ext
  · dsimp only
    exact (map_sum (mulVecLin o.Q) _ _).symm
  · dsimp only
    rw [axialV_add]
    congr 1
    rw [← Finset.smul_sum]
    unfold axialV
    congr 1
    exact (map_sum (mulVecLin o.Q) _ _).symm

theorem rodS_M6 : M6net (rodS o d R) e' a.1 b = (M6net R e a.1 a.2).map (massS o) := by
  unfold M6net
  have e2 : (rodS o d R).N = R.N := rfl
  have er : ∀ i, Rods.r (rodS o d R) i - Rods.r (rodS o d R) 0 = o.Q *ᵥ (Rods.r R i - Rods.r R 0) := by
    intro i
    rw [rodS_r o d R h, rodS_r o d R h, mulVec_sub]
    abel
  have ei : inertiaCorrection (rodS o d R) = inertiaCorrection R := rfl
  rw [ei, e2, Option.map_map]
  congr 1
  funext c
  have hI : Imat a.1 b c.1 c.2 = o.Q * Imat a.1 a.2 c.1 c.2 * o.Qᵀ := by
    rw [Imat_eq a.1 b c.1 c.2 (dir (a.1, b)) rfl, Imat_eq a.1 a.2 c.1 c.2 (dir a) rfl, hb, Q_turn o d h]
    simp only [mul_add, add_mul, mul_sub, sub_mul, mul_smul_comm, smul_mul_assoc, turn_one]
  simp only [er, rodS_M o d R h, translate_axial o, hI, Function.comp_apply, massS_add]
  have h0 : fromBlocks 0 0 0 (o.Q * Imat a.1 a.2 c.1 c.2 * o.Qᵀ) =
      massS o (fromBlocks 0 0 0 (Imat a.1 a.2 c.1 c.2)) := by
    rw [massS_blocks]
    simp
  rw [h0]
  congr 1
  unfold massS
  rw [Finset.mul_sum, Finset.sum_mul]

omit hb

theorem rodS_centripetal (phi : ℝ) (p w : V) :
    centripetal (rodS o d R) e' phi (o.Q *ᵥ p + d) (axialV o w) = o.Q *ᵥ centripetal R e phi p w := by
  unfold centripetal
  have e2 : (rodS o d R).N = R.N := rfl
  have er : ∀ i, Rods.r (rodS o d R) i - (o.Q *ᵥ p + d) = o.Q *ᵥ (Rods.r R i - p) := by
    intro i
    rw [rodS_r o d R h, mulVec_sub]
    abel
  rw [e2]
  simp only [er, axial_cross o, rodS_M o d R h, mulVec_mulVec]
  split_ifs
  · rw [mulVec_zero]
  · rw [mulVec_neg]
    congr 1
    refine Eq.trans (Finset.sum_congr rfl fun i _ => ?_) (map_sum (mulVecLin o.Q) _ _).symm
    rw [mul_assoc (o.Q * _), o.orth, mul_one, mulVecLin_apply, mulVec_mulVec]

/-- Forces, moment and mass matrix of a rod whose angles are those in the mirror. -/
theorem rodS_any (ha : ∀ a, angles R = some a → ∃ b, angles (rodS o d R) = some (a.1, b) ∧ dir (a.1, b) = o.Q *ᵥ dir a) (rRef w : V) :
    getNetForceAndMass (rodS o d R) e' (o.Q *ᵥ rRef + d) (axialV o w) = (getNetForceAndMass R e rRef w).map (loadS o) := by
  unfold getNetForceAndMass
  cases ha' : angles R with
  | none =>
    have : angles (rodS o d R) = none := by
      unfold angles at ha' ⊢
      have e2 : (rodS o d R).N = R.N := rfl
      rw [e2]
      by_cases h0 : R.N = 0
      · rw [if_pos h0] at ha'
        cases ha'
      · rw [if_neg h0] at ha' ⊢
        unfold orientationAngles at ha' ⊢
        have e1 : (rodS o d R).q = o.Q *ᵥ R.q := rfl
        rw [e1, dot]
        by_cases h1 : R.q ⬝ᵥ R.q < 1 / 10 ^ 12
        · rw [if_pos h1]
        · rw [if_neg h1] at ha'
          cases ha'
    rw [this]
    rfl
  | some a =>
    obtain ⟨b, h1, h2⟩ := ha a ha'
    rw [h1]
    simp only [Option.bind_some]
    rw [rodS_M6 o d R h h2, Option.map_map, Option.map_map]
    congr 1
    funext M6
    have er : Rods.r (rodS o d R) 0 - (o.Q *ᵥ rRef + d) = o.Q *ᵥ (Rods.r R 0 - rRef) := by
      rw [rodS_r o d R h, mulVec_sub]
      abel
    simp only [Function.comp_apply, loadS]
    rw [rodS_F6 o d R h h2, er, rodS_centripetal o d R h, translate6_axial o]
    simp only [cross o, mulVec_add, axialV_add]
    rfl

omit h

theorem mirror_det : mirror.Q.det = -1 := by
  simp [mirror, det_fin_three]

/-- In the plane of x and z nothing depends on how small the lean of a rod is. -/
theorem mirror_angles {a : ℝ × ℝ} (ha : angles R = some a) :
    ∃ b, angles (rodS mirror d R) = some (a.1, b) ∧ dir (a.1, b) = mirror.Q *ᵥ dir a := by
  by_cases hl : R.N ≠ 0 → Leans R.q
  · exact rod_angles mirror d { R with w := mirror.Q.det • R.w } ha hl
  · push Not at hl
    obtain ⟨hN, hL⟩ := hl
    have h6 : Real.sqrt (R.q 0 * R.q 0 + R.q 1 * R.q 1) < 1 / 10 ^ 6 := by
      by_contra h
      exact hL (.inr (not_lt.1 h))
    refine ⟨0, ?_⟩
    unfold angles at ha ⊢
    rw [if_neg hN] at ha
    have e2 : (rodS mirror d R).N = R.N := rfl
    have e1 : (rodS mirror d R).q = mirror.Q *ᵥ R.q := rfl
    rw [e2, if_neg hN, e1]
    unfold orientationAngles at ha ⊢
    rw [dot, flat_sq, z]
    by_cases h0 : R.q ⬝ᵥ R.q < 1 / 10 ^ 12
    · rw [if_pos h0] at ha
      cases ha
    rw [if_neg h0] at ha ⊢
    have h7 : |Real.sqrt (R.q 0 * R.q 0 + R.q 1 * R.q 1)| < 1 / 10 ^ 6 := by rwa [abs_of_nonneg (Real.sqrt_nonneg _)]
    simp only [if_pos h7, Option.some.injEq] at ha ⊢
    subst ha
    refine ⟨rfl, ?_⟩
    ext i
    fin_cases i <;> simp [dir, mirror, mulVec, dotProduct, Fin.sum_univ_three]

/-! ## Bodies -/

variable (B : Body)

theorem addAll_axial (l : List (V × V × M6 ℝ)) (x : V × V × M6 ℝ) : addAll (l.map (loadS o)) (loadS o x) = loadS o (addAll l x) := by
  induction l generalizing x with
  | nil => rfl
  | cons y l ih =>
    rw [List.map_cons, addAll, addAll, ← ih]
    simp only [loadS, mulVec_add, massS_add, axialV_add]

/-- The same body, described in axes of its own that are mirrored too. -/
noncomputable def bodyS : Body :=
  { B with
    body_rCG := mirror.Q *ᵥ B.body_rCG
    pos := mirror.Q *ᵥ B.pos + d
    OrMat := mirror.Q * B.OrMat * mirror.Qᵀ
    v := mirror.Q *ᵥ B.v
    w := axialV mirror B.w
    U := mirror.Q *ᵥ B.U }

theorem mirror_diagonal (v : V) : mirror.Q * diagonal v * mirror.Qᵀ = diagonal v := by
  ext i j
  fin_cases i <;> fin_cases j <;> simp [mirror, Matrix.mul_apply, vecMul_diagonal, Fin.sum_univ_three]

theorem bodyS_M0 (rho_w : ℝ) : (bodyS d B).M0 rho_w = massS mirror (B.M0 rho_w) := by
  have e1 : ∀ c : ℝ, mirror.Q * (c • (1 : M3 ℝ)) * mirror.Qᵀ = c • 1 := by
    intro c
    rw [Matrix.mul_smul, mul_one, Matrix.smul_mul, orth']
  have e2 : massS mirror (fromBlocks (B.bodyM • 1) 0 0 (diagonal B.bodyI)) = fromBlocks (B.bodyM • 1) 0 0 (diagonal B.bodyI) := by
    rw [massS_blocks, e1, mirror_diagonal]
    simp
  have e3 : massS mirror (fromBlocks ((B.bodyV * rho_w) • diagonal B.Ca) 0 0 ((B.bodyV * rho_w) • diagonal B.Car)) =
      fromBlocks ((B.bodyV * rho_w) • diagonal B.Ca) 0 0 ((B.bodyV * rho_w) • diagonal B.Car) := by
    rw [massS_blocks, Matrix.mul_smul, Matrix.smul_mul, mirror_diagonal, Matrix.mul_smul, Matrix.smul_mul, mirror_diagonal]
    simp
  unfold Bodies.Body.M0
  rw [massS_add, e3, ← translate6_axial, e2]
  rfl

theorem undoS (A m : M3 ℝ) : (mirror.Q * m * mirror.Qᵀ) * (mirror.Q * A * mirror.Qᵀ) * (mirror.Q * m * mirror.Qᵀ)ᵀ = mirror.Q * (m * A * mᵀ) * mirror.Qᵀ := by
  rw [conj_transpose, conj_mul, conj_mul]

theorem undoS_diagonal (v : V) (m : M3 ℝ) : (mirror.Q * m * mirror.Qᵀ) * diagonal v * (mirror.Q * m * mirror.Qᵀ)ᵀ = mirror.Q * (m * diagonal v * mᵀ) * mirror.Qᵀ := by
  have := undoS (diagonal v) m
  rwa [mirror_diagonal] at this

theorem bodyS_ownM (rho_w : ℝ) : (bodyS d B).ownM rho_w = massS mirror (B.ownM rho_w) := by
  unfold Bodies.Body.ownM
  rw [bodyS_M0, massS_eq mirror (B.M0 rho_w)]
  unfold rotateMass6 rotateMass
  rw [massS_blocks]
  simp only [toBlocks_fromBlocks₁₁, toBlocks_fromBlocks₁₂, toBlocks_fromBlocks₂₁, toBlocks_fromBlocks₂₂, bodyS,
    mul_smul_comm, smul_mul_assoc, transpose_smul]
  rw [undoS, undoS, undoS, conj_transpose]

theorem bodyS_ownF (rho_w g : ℝ) : (bodyS d B).ownF rho_w g = (mirror.Q *ᵥ (B.ownF rho_w g).1, axialV mirror (B.ownF rho_w g).2) := by
  have e1 : (bodyS d B).OrMat = mirror.Q * B.OrMat * mirror.Qᵀ := rfl
  have e2 : (bodyS d B).w = axialV mirror B.w := rfl
  have e3 : (bodyS d B).Fgrav rho_w g = mirror.Q *ᵥ B.Fgrav rho_w g := by
    unfold Body.Fgrav
    rw [vert]
    rfl
  have e4 : (bodyS d B).rCG = mirror.Q *ᵥ B.rCG := by
    unfold Body.rCG
    rw [e1]
    show (mirror.Q * B.OrMat * mirror.Qᵀ) *ᵥ (mirror.Q *ᵥ B.body_rCG) = _
    rw [mulVec_mulVec, mul_assoc, mirror.orth, mul_one, ← mulVec_mulVec]
  have en : ∀ v : V, Mooring.norm (axialV mirror v) = Mooring.norm v := by
    intro v
    unfold axialV
    rw [mirror_det, ← mulVec_smul, norm_turn]
    simp [Mooring.norm]
  have ed : ∀ (m : M3 ℝ) (x y : V), (mirror.Q * (m * diagonal x * mᵀ) * mirror.Qᵀ) *ᵥ (mirror.Q *ᵥ y) = mirror.Q *ᵥ ((m * diagonal x * mᵀ) *ᵥ y) := by
    intro m x y
    rw [mulVec_mulVec, mul_assoc (mirror.Q * _), mirror.orth, mul_one, ← mulVec_mulVec]
  have e5 : (bodyS d B).drag rho_w = mirror.Q *ᵥ B.drag rho_w := by
    unfold Body.drag
    have : (bodyS d B).U - (bodyS d B).v = mirror.Q *ᵥ (B.U - B.v) := by
      rw [mulVec_sub]
      rfl
    dsimp only
    rw [this, norm_turn, e1, mulVec_smul]
    congr 1
    show ((mirror.Q * B.OrMat * mirror.Qᵀ) * diagonal B.CdA * (mirror.Q * B.OrMat * mirror.Qᵀ)ᵀ) *ᵥ _ = _
    rw [undoS_diagonal, ed]
  have e6 : (bodyS d B).dragMoment rho_w = axialV mirror (B.dragMoment rho_w) := by
    unfold Body.dragMoment
    rw [e2, ← axialV_neg, en, e1]
    show _ • (((mirror.Q * B.OrMat * mirror.Qᵀ) * diagonal B.CdAr * (mirror.Q * B.OrMat * mirror.Qᵀ)ᵀ) *ᵥ _) = _
    rw [undoS_diagonal]
    unfold axialV
    rw [mulVec_smul, ed, mulVec_smul, smul_comm]
  unfold Body.ownF
  rw [e2, e3, e4, e5, e6, bodyS_ownM, massS_eq]
  simp only [toBlocks_fromBlocks₁₁, axial_cross, cross mirror, mulVec_add, mulVec_sub, mulVec_mulVec, axialV_add]
  rw [mul_assoc (mirror.Q * _), mirror.orth, mul_one]
  rfl

end MD.Frame
