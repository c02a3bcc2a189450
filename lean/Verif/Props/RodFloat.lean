import Verif.Props.Rod
import Verif.Spec.Cylinder

/-!
# C66, C85: rods floating at an angle
-/

set_option linter.unusedSimpArgs false
set_option linter.unusedVariables false

namespace MD.Rods

open Matrix MD.Mat MD.Rot MD.Mooring Finset

variable {R : Rod} {e : Env}

/-- An inclined rod across the surface of still water, end A down: the surface crosses the axis
halfway between the nodes `j` and `j + 1`, and the cross sections at the nodes are clear of it. -/
structure Inclined (R : Rod) (e : Env) (j : ℕ) : Prop where
  proper : Proper R
  heading : HeadingOk R
  still : e.zeta R.N = 0
  up : 0 < R.q 2
  inside : j < R.N
  between : -R.r0 2 = (j + 1 / 2) * (R.UnstrLen / R.N) * R.q 2
  clear : R.d * Real.sqrt (R.q 0 * R.q 0 + R.q 1 * R.q 1) < R.UnstrLen / R.N * R.q 2

/-- The wet length of the axis -/
noncomputable def wetLength (R : Rod) (j : ℕ) : ℝ := (j + 1 / 2) * (R.UnstrLen / R.N)

section
variable {j : ℕ} (hf : Inclined R e j) {a : ℝ × ℝ} (h : angles R = some a)
include hf

theorem Inclined.l_eq : l R = R.UnstrLen / R.N := by
  unfold l; rw [if_neg hf.proper.hN]

theorem Inclined.z_node (i : ℕ) :
    r R i 2 = ((i : ℝ) - j - 1 / 2) * (R.UnstrLen / R.N) * R.q 2 := by
  rw [r_eq hf.proper.hN]
  have h1 := hf.between
  have hN' : (R.N : ℝ) ≠ 0 := by exact_mod_cast hf.proper.hN
  simp only [Pi.add_apply, Pi.smul_apply, smul_eq_mul]
  have : (i : ℝ) / R.N * R.UnstrLen = i * (R.UnstrLen / R.N) := by field_simp
  rw [this]
  linear_combination -h1

theorem Inclined.lsum {i : ℕ} (hi : i ≤ R.N) :
    Lsum R i = if i = 0 then 0 else ((i : ℝ) - 1 / 2) * (R.UnstrLen / R.N) := by
  induction i with
  | zero => rfl
  | succ i ih =>
    rw [if_neg (by omega)]
    rw [Lsum, ih (by omega)]
    unfold dL
    rw [hf.l_eq]
    by_cases h0 : i = 0
    · subst h0
      rw [if_pos rfl, if_pos rfl]
      push_cast
      ring
    · rw [if_neg h0, if_neg h0, if_neg (by omega)]
      push_cast
      ring

theorem Inclined.node_len {i : ℕ} (hi : i ≤ j) :
    dL R i = if i = 0 then 1 / 2 * (R.UnstrLen / R.N) else R.UnstrLen / R.N := by
  have := hf.inside
  unfold dL
  rw [hf.l_eq]
  by_cases h0 : i = 0
  · rw [if_pos h0, if_pos h0]
  · rw [if_neg h0, if_neg h0, if_neg (by omega)]; ring

theorem Inclined.seg_pos : 0 < R.UnstrLen / R.N := by
  have := l_pos hf.proper.hN hf.proper.hL
  rwa [hf.l_eq] at this

theorem Inclined.h0_eq : h0 R e = wetLength R j := by
  have hz : zetaI R e = 0 := hf.still
  have hl := hf.seg_pos
  have hu := hf.up
  have hlu : 0 < R.UnstrLen / R.N * R.q 2 := mul_pos hl hu
  have hj : (j : ℝ) + 1 ≤ R.N := by exact_mod_cast hf.inside
  have hj0 : (0 : ℝ) ≤ j := Nat.cast_nonneg j
  have z0 : r R 0 2 < 0 := by
    rw [hf.z_node, mul_assoc]; push_cast; nlinarith
  have zN : 0 < r R R.N 2 := by
    rw [hf.z_node, mul_assoc]
    exact mul_pos (by linarith) hlu
  unfold h0
  simp only [hz]
  rw [if_neg (fun hh => absurd hh.2 (not_lt.2 zN.le)), if_pos ⟨z0, zN⟩, r_zero]
  have := hf.between
  unfold wetLength
  rw [zero_sub, this]
  field_simp

include h in
theorem Inclined.sin_eq : Real.sin a.1 = Real.sqrt (R.q 0 * R.q 0 + R.q 1 * R.q 1) :=
  (angles_some hf.proper h).2

include h in
theorem Inclined.sin_nonneg : 0 ≤ Real.sin a.1 := by
  rw [hf.sin_eq h]; exact Real.sqrt_nonneg _

include h in
/-- Cross sections of the nodes up to `j` are under water. -/
theorem Inclined.below {i : ℕ} (hi : i ≤ j) : z1hi R (r R i 2) (Real.sin a.1) < 0 := by
  unfold z1hi
  rw [abs_of_nonneg (hf.sin_nonneg h), hf.sin_eq h, hf.z_node]
  have hc := hf.clear
  have hlu : 0 < R.UnstrLen / R.N * R.q 2 := mul_pos hf.seg_pos hf.up
  have hij : (i : ℝ) ≤ j := by exact_mod_cast hi
  rw [mul_assoc]
  nlinarith

include h in
/-- Those of the others are out of the water. -/
theorem Inclined.above {i : ℕ} (hi : j < i) : 0 < z1lo R (r R i 2) (Real.sin a.1) := by
  unfold z1lo
  rw [abs_of_nonneg (hf.sin_nonneg h), hf.sin_eq h, hf.z_node]
  have hc := hf.clear
  have hlu : 0 < R.UnstrLen / R.N * R.q 2 := mul_pos hf.seg_pos hf.up
  have hij : (j : ℝ) + 1 ≤ i := by exact_mod_cast hi
  rw [mul_assoc]
  nlinarith

include h in
theorem Inclined.vof_wet {i : ℕ} (hi : i ≤ j) : vof R e a.1 i = 1 := by
  have hz : zetaI R e = 0 := hf.still
  have hb := hf.below h hi
  have hl := hf.seg_pos
  have hd := hf.proper.hd
  have hs0 := hf.sin_nonneg h
  have hlo : ¬ z1lo R (r R i 2) (Real.sin a.1) > 0 := by
    unfold z1lo z1hi at *
    rw [abs_of_nonneg hs0] at *
    have : 0 ≤ 1 / 2 * R.d * Real.sin a.1 := by positivity
    intro hc; linarith
  have hij : (i : ℝ) ≤ j := by exact_mod_cast hi
  have hv : vof0 (h0 R e) (Lsum R i) (dL R i) = 1 := by
    rw [hf.h0_eq]
    unfold vof0
    have hw : 0 ≤ wetLength R j := by unfold wetLength; positivity
    rw [if_neg (not_lt.2 hw), if_pos]
    rw [hf.lsum (by have := hf.inside; omega), hf.node_len hi]
    unfold wetLength
    split_ifs <;> nlinarith
  unfold vof
  rw [hv, hz]
  unfold crossSection
  rw [if_neg hlo, if_pos hb]
  have hp := Real.pi_pos
  have h1 : Real.pi * (1 / 4) * R.d * R.d / (1 / 4 * Real.pi * R.d * R.d) = 1 := by
    field_simp
  rw [h1]
  have := Real.sin_sq_add_cos_sq a.1
  nlinarith

include h in
theorem Inclined.vof_dry {i : ℕ} (hi : j < i) (hi' : i ≤ R.N) : vof R e a.1 i = 0 := by
  have hz : zetaI R e = 0 := hf.still
  have hb := hf.above h hi
  have hl := hf.seg_pos
  have hij : (j : ℝ) + 1 ≤ i := by exact_mod_cast hi
  have hd := dL_pos hf.proper.hN hf.proper.hL i
  have hv : vof0 (h0 R e) (Lsum R i) (dL R i) = 0 := by
    rw [hf.h0_eq]
    unfold vof0
    have hw : 0 ≤ wetLength R j := by unfold wetLength; positivity
    have hL : wetLength R j ≤ Lsum R i := by
      rw [hf.lsum hi', if_neg (by omega)]
      unfold wetLength
      nlinarith
    rw [if_neg (not_lt.2 hw), if_neg (by linarith), if_neg (by linarith)]
  unfold vof
  rw [hv, hz]
  unfold crossSection
  rw [if_pos hb]
  simp

include h in
theorem Inclined.endA_wet : endWet R e a.1 0 := by
  have hz : zetaI R e = 0 := hf.still
  have hb := hf.below h (Nat.zero_le j)
  have h0 := hf.sin_nonneg h
  have hd := hf.proper.hd
  unfold endWet
  rw [hz]
  unfold z1lo z1hi at *
  rw [abs_of_nonneg h0] at *
  have : 0 ≤ 1 / 2 * R.d * Real.sin a.1 := by positivity
  linarith

include h in
theorem Inclined.endB_dry : ¬ endWet R e a.1 R.N := by
  have hz : zetaI R e = 0 := hf.still
  have hb := hf.above h hf.inside
  unfold endWet
  rw [hz]
  exact not_lt.2 hb.le

include h in
theorem Inclined.zA_eq : zA R e a.1 0 = r R 0 2 := by
  have hz : zetaI R e = 0 := hf.still
  have hw := hf.endA_wet h
  unfold endWet at hw
  unfold zA crossSection
  rw [if_neg (not_lt.mpr hw.le), if_pos (by rw [hz]; exact hf.below h (Nat.zero_le j))]

include h in
/-- The buoyancy of the nodes. -/
theorem Inclined.buoyancy {i : ℕ} (hi : i ≤ R.N) :
    Bo R e a.1 a.2 i = (if i ≤ j then
        dL R i • ((-(area R * e.rho_w * e.g * Real.sin a.1)) • eTheta a) else 0)
      + (if i = 0 then (area R * e.rho_w * e.g * (wetLength R j * R.q 2)) • eAxis a else 0) := by
  have hN := hf.proper.hN
  have hB : BoB R e a.1 a.2 i = 0 := by
    unfold BoB
    rw [if_neg]
    rintro ⟨rfl, h2⟩
    exact hf.endB_dry h h2
  unfold Bo
  rw [hB, add_zero]
  congr 1
  · unfold BoSide
    rw [if_neg hN, v_eq hN]
    by_cases hij : i ≤ j
    · rw [if_pos hij, hf.vof_wet h hij]
      funext k
      fin_cases k <;> simp [eTheta] <;> ring
    · rw [if_neg hij, hf.vof_dry h (by omega) hi]
      funext k
      fin_cases k <;> simp
  · unfold BoA
    by_cases h0 : i = 0
    · subst h0
      rw [if_pos ⟨rfl, hf.endA_wet h⟩, if_pos rfl, hf.vof_wet h (Nat.zero_le j), hf.zA_eq h,
        hf.z_node, axial_eq]
      congr 1
      unfold wetLength
      push_cast
      ring
    · rw [if_neg (fun hh => h0 hh.1), if_neg h0]

omit hf in
theorem sum_upto {E : Type} [AddCommGroup E] {N j : ℕ} (hj : j < N) (f : ℕ → E) :
    ∑ i ∈ range (N + 1), (if i ≤ j then f i else 0) = ∑ i ∈ range (j + 1), f i := by
  rw [← sum_filter]
  congr 1
  ext i
  simp only [mem_filter, mem_range]
  omega

theorem Inclined.sum_len : ∑ i ∈ range (j + 1), dL R i = wetLength R j := by
  rw [← Lsum_eq_sum, hf.lsum (by have := hf.inside; omega), if_neg (by omega)]
  unfold wetLength
  push_cast
  ring

theorem Inclined.sum_lever :
    ∑ i ∈ range (j + 1), dL R i * ((i : ℝ) / R.N * R.UnstrLen) =
      (R.UnstrLen / R.N) ^ 2 * (j * (j + 1) / 2) := by
  rw [sum_range_succ']
  have h1 : ∀ i ∈ range j, dL R (i + 1) * (((i + 1 : ℕ) : ℝ) / R.N * R.UnstrLen) =
      (R.UnstrLen / R.N) ^ 2 * ((i + 1 : ℕ) : ℝ) := by
    intro i hi
    rw [mem_range] at hi
    rw [hf.node_len (by omega), if_neg (by omega)]
    ring
  rw [sum_congr rfl h1, ← mul_sum, sum_id]
  simp

include h in
/-- **C66** for inclined rods: the buoyancy is the weight of the displaced water, upwards. -/
theorem C66_inclined_partial :
    ∑ i ∈ range (R.N + 1), Bo R e a.1 a.2 i =
      ![0, 0, e.rho_w * e.g * MD.Cyl.volume (R.d / 2) (wetLength R j) a.1] := by
  have h1 : ∀ i ∈ range (R.N + 1), Bo R e a.1 a.2 i = _ := fun i hi =>
    hf.buoyancy h (by rw [mem_range] at hi; omega)
  rw [sum_congr rfl h1, sum_add_distrib, sum_upto hf.inside, ← sum_smul, hf.sum_len,
    sum_ite_eq' (range (R.N + 1)) 0, if_pos (by simp), MD.Cyl.volume_eq]
  have hc := (angles_some hf.proper h).1
  have hsc := Real.sin_sq_add_cos_sq a.1
  rw [← hc]
  unfold eTheta eAxis area
  generalize Real.sin a.1 = s at *
  generalize Real.cos a.1 = c at *
  funext k
  fin_cases k
  · simp; ring
  · simp; ring
  · simp; linear_combination (e.rho_w * e.g * Real.pi * R.d ^ 2 / 4 * wetLength R j) * hsc

/-- The moment of the buoyancy about end A that the code adds up: that of the forces on the
nodes, of the caps, and of the water plane. -/
noncomputable def buoyancyMoment (R : Rod) (e : Env) (a : ℝ × ℝ) : V :=
  ∑ i ∈ range (R.N + 1), (r R i - r R 0) ⨯₃ Bo R e a.1 a.2 i
    + MextCap R e a.1 a.2 + MextWater R e a.1 a.2

/-- The second moment of area of the cross section -/
noncomputable def secondMoment (R : Rod) : ℝ := Real.pi / 4 * (R.d / 2) ^ 4

/-- The direction of a moment that turns the rod upright -/
noncomputable def righting (a : ℝ × ℝ) : V := ![Real.sin a.2, -Real.cos a.2, 0]

include h in
/-- **C85**: the moment turns the rod upright, about a horizontal axis across it, with the value
given. -/
theorem C85_righting_partial :
    buoyancyMoment R e a = (e.rho_w * e.g * Real.sin a.1 *
      (area R * ((R.UnstrLen / R.N) ^ 2 * (j * (j + 1) / 2)) +
        (4 * Real.cos a.1 - 1) * secondMoment R)) • righting a := by
  have hq : R.q = eAxis a := axis_spherical hf.proper hf.heading h
  have hN := hf.proper.hN
  have h1 : ∀ i ∈ range (R.N + 1), (r R i - r R 0) ⨯₃ Bo R e a.1 a.2 i =
      if i ≤ j then (dL R i * ((i : ℝ) / R.N * R.UnstrLen)) •
        (R.q ⨯₃ ((-(area R * e.rho_w * e.g * Real.sin a.1)) • eTheta a)) else 0 := by
    intro i hi
    rw [hf.buoyancy h (by rw [mem_range] at hi; omega), r_rel hN, ← hq, map_add]
    have hz : ∀ x y : ℝ, (x • R.q) ⨯₃ (y • R.q) = 0 := by
      intro x y
      rw [map_smul, map_smul, LinearMap.smul_apply, cross_self, smul_zero, smul_zero]
    have e1 : (((i : ℝ) / R.N * R.UnstrLen) • R.q) ⨯₃ (if i = 0 then
        (area R * e.rho_w * e.g * (wetLength R j * R.q 2)) • R.q else 0) = 0 := by
      split_ifs
      · exact hz _ _
      · exact map_zero _
    rw [e1, add_zero]
    split_ifs
    · rw [LinearMap.map_smul crossProduct, LinearMap.smul_apply, map_smul (crossProduct R.q) (dL R i),
        smul_smul, mul_comm]
    · exact map_zero _
  have hcap : MextCap R e a.1 a.2 =
      (-(e.rho_w * e.g * Real.sin a.1 * secondMoment R)) • righting a := by
    unfold MextCap
    simp only
    rw [if_pos (hf.endA_wet h), if_neg (hf.endB_dry h), hf.vof_wet h (Nat.zero_le j), add_zero]
    unfold secondMoment righting
    funext k
    fin_cases k <;> simp <;> ring_nf <;> simp
  have hwat : MextWater R e a.1 a.2 =
      (e.rho_w * e.g * Real.sin a.1 * (4 * Real.cos a.1 * secondMoment R)) • righting a := by
    have hz : zetaI R e = 0 := hf.still
    have hlu : 0 < R.UnstrLen / R.N * R.q 2 := mul_pos hf.seg_pos hf.up
    have hj : (j : ℝ) + 1 ≤ R.N := by exact_mod_cast hf.inside
    have hj0 : (0 : ℝ) ≤ j := Nat.cast_nonneg j
    unfold MextWater
    rw [if_pos]
    · unfold secondMoment righting
      funext k
      fin_cases k <;> simp <;> ring_nf <;> simp
    · rw [hz, hf.z_node, hf.z_node, mul_assoc, mul_assoc]
      constructor
      · push_cast; nlinarith
      · exact mul_pos (by linarith) hlu
  unfold buoyancyMoment
  rw [sum_congr rfl h1, sum_upto hf.inside, ← sum_smul, hf.sum_lever, hcap, hwat]
  rw [hq]
  have hsc := Real.sin_sq_add_cos_sq a.1
  unfold eTheta eAxis righting
  generalize Real.sin a.1 = s at *
  generalize Real.cos a.1 = c at *
  generalize (R.UnstrLen / (R.N : ℝ)) ^ 2 * ((j : ℝ) * (j + 1) / 2) = S
  generalize secondMoment R = I
  generalize area R = A
  funext k
  fin_cases k
  · simp [cross_apply]
    linear_combination (S * A * e.rho_w * e.g * s * Real.sin a.2) * hsc
  · simp [cross_apply]
    linear_combination (-(S * A * e.rho_w * e.g * s * Real.cos a.2)) * hsc
  · simp [cross_apply]; right; ring

include h in
/-- **C85** (all moments): the moment about end A of an inclined rod at rest in still water, off the
bottom, is that of its weight at its middle, that of the lines, and the moment of the buoyancy. -/
theorem C85_moment_partial (hv : R.vA = 0) (hw : R.w = 0) (hU : ∀ i, e.U i = 0)
    (hUd : ∀ i, e.Ud i = 0) (hp : ∀ i, e.pdyn i = 0)
    (hb : ∀ i ≤ R.N, e.waterDepth (r R i 0) (r R i 1) ≤ r R i 2) :
    (F6net R e a.1 a.2).2 =
      ((R.UnstrLen / 2) • R.q) ⨯₃ ![0, 0, -(R.rho * volume R * e.g)]
      + (R.UnstrLen • R.q) ⨯₃ (R.attachedB.map fun x => x.1).sum
      + (R.attachedA.map fun x => x.2.1).sum + (R.attachedB.map fun x => x.2.1).sum
      + (e.rho_w * e.g * Real.sin a.1 *
        (area R * ((R.UnstrLen / R.N) ^ 2 * (j * (j + 1) / 2)) +
          (4 * Real.cos a.1 - 1) * secondMoment R)) • righting a := by
  have hN := hf.proper.hN
  have hN' : (R.N : ℝ) ≠ 0 := by exact_mod_cast hN
  rw [← C85_righting_partial hf h]
  have hvi : ∀ i, vi R e i = 0 := by
    intro i
    unfold vi
    rw [hU, rd_eq hN, hw, hv, LinearMap.map_zero, LinearMap.zero_apply, add_zero, sub_zero]
  have hvq : ∀ i, vq R e i = 0 := by
    intro i; unfold vq; rw [hvi, zero_dotProduct, zero_smul]
  have hvp : ∀ i, vp R e i = 0 := by
    intro i; unfold vp; rw [hvi, hvq, sub_zero]
  have haq : ∀ i, aq R e i = 0 := by
    intro i; unfold aq; rw [hUd, zero_dotProduct, zero_smul]
  have hap : ∀ i, ap R e i = 0 := by
    intro i; unfold ap; rw [hUd, haq, sub_zero]
  have h1 : ∀ i ∈ range (R.N + 1), (r R i - r R 0) ⨯₃ Fnet R e a.1 a.2 i =
      (r R i - r R 0) ⨯₃ Bo R e a.1 a.2 i
      + (dL R i * ((i : ℝ) / R.N * R.UnstrLen)) • (R.q ⨯₃ ![0, 0, -(area R * R.rho * e.g)])
      + (if i = R.N then (R.UnstrLen • R.q) ⨯₃ (R.attachedB.map fun x => x.1).sum else 0) := by
    intro i hi
    have hi' : i ≤ R.N := by rw [mem_range] at hi; omega
    have eW : W R e i = dL R i • ![0, 0, -(area R * R.rho * e.g)] := by
      unfold W m
      rw [if_neg hN]
      funext k
      fin_cases k <;> simp
      ring
    have eDp : Dp R e a.1 i = 0 := by unfold Dp; rw [hvp, smul_zero, ite_self]
    have eDq : Dq R e a.1 i = 0 := by
      unfold Dq; rw [hvq, smul_zero, ite_self, ite_self, add_zero]
    have eAp : Ap R e a.1 i = 0 := by unfold Ap; rw [hap, smul_zero, ite_self]
    have eAq : Aq R e a.1 i = 0 := by
      unfold Aq; rw [haq, smul_zero, ite_self, ite_self, add_zero]
    have ePd : Pd R e a.1 i = 0 := by
      unfold Pd; rw [hp, mul_zero, mul_zero, zero_smul, ite_self, ite_self, add_zero]
    have eB : B R e i = 0 := by
      unfold B
      rw [if_neg hN]
      dsimp only
      rw [if_neg (not_lt.2 (hb i hi'))]
    have eF : Fnet R e a.1 a.2 i = Bo R e a.1 a.2 i
        + dL R i • ![0, 0, -(area R * R.rho * e.g)] + lineF R i := by
      unfold Fnet
      rw [eW, eDp, eDq, eAp, eAq, ePd, eB]
      abel
    rw [eF, map_add, map_add]
    congr 1
    · congr 1
      rw [r_rel hN, map_smul, LinearMap.map_smul crossProduct, LinearMap.smul_apply, smul_smul]
    · rw [r_rel hN]
      unfold lineF
      by_cases h0 : i = 0
      · have h1 : i ≠ R.N := by rw [h0]; exact hN.symm
        rw [if_neg h1, if_neg h1, h0]
        simp
      · rw [if_neg h0, zero_add]
        by_cases h1 : i = R.N
        · rw [if_pos h1, if_pos h1, h1, div_self hN', one_mul]
        · rw [if_neg h1, if_neg h1, map_zero]
  unfold F6net Mext MextLine buoyancyMoment
  dsimp only
  rw [sum_congr rfl h1, sum_add_distrib, sum_add_distrib, ← sum_smul, sum_dL_x hN,
    sum_ite_eq' (range (R.N + 1)) R.N, if_pos (by simp)]
  have hW : ((R.UnstrLen / 2) • R.q) ⨯₃ ![0, 0, -(R.rho * volume R * e.g)] =
      (R.UnstrLen * R.UnstrLen / 2) • (R.q ⨯₃ ![0, 0, -(area R * R.rho * e.g)]) := by
    have : (![0, 0, -(R.rho * volume R * e.g)] : V) =
        R.UnstrLen • ![0, 0, -(area R * R.rho * e.g)] := by
      unfold volume area
      funext k
      fin_cases k
      · simp
      · simp
      · simp; ring
    rw [this, map_smul, LinearMap.map_smul crossProduct, LinearMap.smul_apply, smul_smul]
    congr 1
    ring
  rw [hW]
  abel

include h in
/-- **C85** is false: the moment exceeds that of the displaced water by nine tenths at least of what
the second moment of area of the section contributes for small inclinations (segments no longer
than the radius). -/
theorem C85_righting_false (hl : R.UnstrLen / R.N ≤ R.d / 2) (hr : 0 < e.rho_w) (hg : 0 < e.g)
    (ht : 0 < Real.sin a.1) :
    ∃ M : ℝ, buoyancyMoment R e a = M • righting a ∧
      e.rho_w * e.g * MD.Cyl.moment (R.d / 2) (wetLength R j) a.1 +
        9 / 10 * (e.rho_w * e.g * Real.sin a.1 * secondMoment R) < M := by
  refine ⟨_, C85_righting_partial hf h, ?_⟩
  have hc : 0 < Real.cos a.1 := by rw [(angles_some hf.proper h).1]; exact hf.up
  have hsc := Real.sin_sq_add_cos_sq a.1
  have hl0 := hf.seg_pos
  have hd := hf.proper.hd
  have hclear := hf.clear
  rw [← hf.sin_eq h, ← (angles_some hf.proper h).1] at hclear
  rw [MD.Cyl.moment_eq _ _ _ hc.ne']
  have htan : Real.tan a.1 = Real.sin a.1 / Real.cos a.1 := Real.tan_eq_sin_div_cos _
  unfold wetLength area secondMoment
  have hp := Real.pi_pos
  generalize R.UnstrLen / (R.N : ℝ) = ll at *
  set t := Real.tan a.1 with htdef
  have ht1 : t < 1 / 2 := by
    rw [htan, div_lt_iff₀ hc]
    nlinarith
  have ht0 : 0 < t := by rw [htan]; positivity
  have hcs : Real.cos a.1 ^ 2 * (1 + t ^ 2) = 1 := by
    rw [htan]; field_simp; linarith
  have hcb : 89 / 100 < Real.cos a.1 := by
    by_contra hcon
    push Not at hcon
    have h1 : Real.cos a.1 ^ 2 ≤ (89 / 100) ^ 2 := by nlinarith
    have h2 : t ^ 2 < 1 / 4 := by nlinarith
    nlinarith
  have key : 0 < Real.pi * (-(R.d ^ 2 * ll ^ 2) / 32 +
      R.d ^ 4 / 64 * (4 * Real.cos a.1 - 2 - t ^ 2 / 2 - 9 / 10)) := by
    apply mul_pos hp
    have h1 : ll ^ 2 ≤ R.d ^ 2 / 4 := by nlinarith
    have h2 : R.d ^ 2 * ll ^ 2 ≤ R.d ^ 4 / 4 := by nlinarith [sq_nonneg R.d]
    have h3 : 0 < R.d ^ 4 := by positivity
    have h4 : 1 / 2 < 4 * Real.cos a.1 - 2 - t ^ 2 / 2 - 9 / 10 := by nlinarith
    nlinarith
  have hk : 0 < e.rho_w * e.g * Real.sin a.1 := by positivity
  have := mul_pos hk key
  nlinarith
end

/-- A buoy of 10 m in ten segments, tilted by 22 degrees, 3.5 m of it in the water -/
noncomputable def tilted : Rod :=
  { spar (-(42 / 13)) with N := 10, q := ![5 / 13, 0, 12 / 13] }

theorem tilted_inclined : Inclined tilted still 3 := by
  have hs : Real.sqrt (tilted.q 0 * tilted.q 0 + tilted.q 1 * tilted.q 1) = 5 / 13 := by
    rw [show tilted.q 0 * tilted.q 0 + tilted.q 1 * tilted.q 1 = (5 / 13) ^ 2 by
      simp [tilted, spar]; norm_num]
    exact Real.sqrt_sq (by norm_num)
  refine ⟨⟨?_, ?_, ?_, ?_⟩, ?_, ?_, ?_, ?_, ?_, ?_⟩
  · simp [tilted, spar]
  · simp [tilted, spar]
  · simp [tilted, spar]
  · simp [tilted, spar, dotProduct, Fin.sum_univ_three]; norm_num
  · right; rw [hs]; norm_num
  · simp [still]
  · simp [tilted, spar]
  · simp [tilted, spar]
  · simp [tilted, spar]; norm_num
  · rw [hs]; simp [tilted, spar]; norm_num

/-- Non-vacuity: the hypotheses of `C66_inclined_partial`, `C85_righting_partial`,
`C85_moment_partial` and `C85_righting_false`. -/
example : ∃ a, angles tilted = some a ∧ Inclined tilted still 3 ∧
    tilted.UnstrLen / tilted.N ≤ tilted.d / 2 ∧ 0 < still.rho_w ∧ 0 < still.g ∧
    0 < Real.sin a.1 ∧ tilted.vA = 0 ∧ tilted.w = 0 ∧
    ∀ i ≤ tilted.N, still.waterDepth (r tilted i 0) (r tilted i 1) ≤ r tilted i 2 := by
  obtain ⟨a, ha⟩ := angles_isSome tilted_inclined.proper
  refine ⟨a, ha, tilted_inclined, ?_, ?_, ?_, ?_, rfl, rfl, ?_⟩
  · simp [tilted, spar]
  · simp [still]
  · simp [still]
  · rw [tilted_inclined.sin_eq ha]
    apply Real.sqrt_pos.2
    simp [tilted, spar]
  · intro i hi
    rw [tilted_inclined.z_node]
    have : (0 : ℝ) ≤ i := Nat.cast_nonneg i
    simp [tilted, spar, still]
    linarith

/-! ## C86: the total force on a submerged rod -/

section
variable (hR : Proper R) (hs : Submerged R e) {a : ℝ × ℝ} (h : angles R = some a)
include hR hs h

/-- **C86**: the force on a submerged rod that moves without turning in water that moves as a
whole, off the bottom, for any number of segments: weight, buoyancy, drag across and along the
axis, the Froude-Krylov force `ρ V a`, the inertia of the added masses, and the lines. -/
theorem C86_force (uw aw : V) (p0 : ℝ) (hw : R.w = 0) (hU : ∀ i, e.U i = uw)
    (hUd : ∀ i, e.Ud i = aw) (hp : ∀ i ≤ R.N, e.pdyn i = p0 - e.rho_w * (aw ⬝ᵥ r R i))
    (hb : ∀ i ≤ R.N, e.waterDepth (r R i 0) (r R i 1) ≤ r R i 2) :
    let u := uw - R.vA
    let ut := (u ⬝ᵥ R.q) • R.q
    let at' := (aw ⬝ᵥ R.q) • R.q
    let A := Real.pi * (R.d / 2) ^ 2
    (F6net R e a.1 a.2).1 =
      ![0, 0, (e.rho_w - R.rho) * (A * R.UnstrLen) * e.g]
      + (1 / 2 * e.rho_w * R.Cdn * (R.d * R.UnstrLen) * Mooring.norm (u - ut)) • (u - ut)
      + (e.rho_w * R.CdEnd * A * Mooring.norm ut) • ut
      + (e.rho_w * (A * R.UnstrLen)) • aw
      + (R.Can * e.rho_w * (A * R.UnstrLen)) • (aw - at')
      + (2 * (R.CaEnd * e.rho_w * (2 / 3 * Real.pi * (R.d / 2) ^ 3))) • at'
      + (R.attachedA.map fun x => x.1).sum + (R.attachedB.map fun x => x.1).sum := by
  intro u ut at' A
  have hN := hR.hN
  have hrd : ∀ i, rd R i = R.vA := by
    intro i
    rw [rd_eq hN, hw, LinearMap.map_zero, LinearMap.zero_apply, add_zero]
  have hvi : ∀ i, vi R e i = u := by
    intro i; unfold vi; rw [hU, hrd]
  have hvq : ∀ i, vq R e i = ut := by
    intro i; unfold vq; rw [hvi]
  have hvp : ∀ i, vp R e i = u - ut := by
    intro i; unfold vp; rw [hvi, hvq]
  have haq : ∀ i, aq R e i = at' := by
    intro i; unfold aq; rw [hUd]
  have hap : ∀ i, ap R e i = aw - at' := by
    intro i; unfold ap; rw [hUd, haq]
  have hvof : ∀ i ∈ range (R.N + 1), vof R e a.1 i = 1 := fun i hi =>
    vof_submerged hR hs h (by rw [mem_range] at hi; omega)
  have hwet : ∀ i ∈ range (R.N + 1), endWet R e a.1 i := fun i hi =>
    endWet_submerged hR hs h (by rw [mem_range] at hi; omega)
  have hF : ∀ i ∈ range (R.N + 1), Fnet R e a.1 a.2 i =
      Bo R e a.1 a.2 i + dL R i • (![0, 0, -(A * R.rho * e.g)]
        + (1 / 2 * e.rho_w * R.Cdn * R.d * Mooring.norm (u - ut)) • (u - ut)
        + (e.rho_w * (1 + R.Can) * A) • (aw - at'))
      + ((if i = 0 then (1 / 2 * A * e.rho_w * R.CdEnd * Mooring.norm ut) • ut
            + (e.rho_w * R.CaEnd * VEnd R) • at' + (A * e.pdyn 0) • R.q
            + (R.attachedA.map fun x => x.1).sum else 0)
        + (if i = R.N then (1 / 2 * A * e.rho_w * R.CdEnd * Mooring.norm ut) • ut
            + (e.rho_w * R.CaEnd * VEnd R) • at' + (-(A * e.pdyn R.N)) • R.q
            + (R.attachedB.map fun x => x.1).sum else 0)) := by
    intro i hi
    have hA : area R = A := by unfold area; change _ = Real.pi * (R.d / 2) ^ 2; ring
    have hi' : i ≤ R.N := by rw [mem_range] at hi; omega
    have eW : W R e i = dL R i • ![0, 0, -(A * R.rho * e.g)] := by
      unfold W m
      rw [if_neg hN, hA]
      funext k
      fin_cases k <;> simp
      ring
    have eDp : Dp R e a.1 i =
        dL R i • ((1 / 2 * e.rho_w * R.Cdn * R.d * Mooring.norm (u - ut)) • (u - ut)) := by
      unfold Dp
      rw [if_neg hN, hvp, hvof i hi, smul_smul]
      congr 1
      ring
    have eAp : Ap R e a.1 i = dL R i • ((e.rho_w * (1 + R.Can) * A) • (aw - at')) := by
      unfold Ap
      rw [if_neg hN, hap, hvof i hi, v_eq hN, hA, smul_smul]
      congr 1
      ring
    have eDq : Dq R e a.1 i =
        (if i = 0 then (1 / 2 * A * e.rho_w * R.CdEnd * Mooring.norm ut) • ut else 0)
        + (if i = R.N then (1 / 2 * A * e.rho_w * R.CdEnd * Mooring.norm ut) • ut else 0) := by
      unfold Dq
      simp only [hwet i hi, and_true, hvof i hi, hvq, mul_one, hA]
    have eAq : Aq R e a.1 i =
        (if i = 0 then (e.rho_w * R.CaEnd * VEnd R) • at' else 0)
        + (if i = R.N then (e.rho_w * R.CaEnd * VEnd R) • at' else 0) := by
      unfold Aq
      simp only [hwet i hi, and_true, hvof i hi, haq, one_mul]
    have ePd : Pd R e a.1 i =
        (if i = 0 then (A * e.pdyn 0) • R.q else 0)
        + (if i = R.N then (-(A * e.pdyn R.N)) • R.q else 0) := by
      unfold Pd
      simp only [hwet i hi, and_true, hvof i hi, one_mul, hA, neg_mul]
      congr 1
      · split_ifs with h0
        · subst h0; rfl
        · rfl
      · split_ifs with h0
        · rw [h0]
        · rfl
    have eB : B R e i = 0 := by
      unfold B
      rw [if_neg hN]
      dsimp only
      rw [if_neg (not_lt.2 (hb i hi'))]
    unfold Fnet lineF
    rw [eW, eDp, eAp, eDq, eAq, ePd, eB]
    by_cases h0 : i = 0
    · have h1 : i ≠ R.N := by rw [h0]; exact hN.symm
      simp only [if_pos h0, if_neg h1, add_zero, smul_add]
      abel
    · simp only [if_neg h0, zero_add, smul_add]
      by_cases h1 : i = R.N
      · simp only [if_pos h1]; abel
      · simp only [if_neg h1]; abel
  have hpd : e.pdyn 0 - e.pdyn R.N = e.rho_w * R.UnstrLen * (aw ⬝ᵥ R.q) := by
    rw [hp 0 (Nat.zero_le _), hp R.N le_rfl]
    have hN' : (R.N : ℝ) ≠ 0 := by exact_mod_cast hN
    have : r R R.N = r R 0 + R.UnstrLen • R.q := by
      rw [r_eq hN, r_zero, div_self hN', one_mul]
    rw [this, dotProduct_add, dotProduct_smul, smul_eq_mul]
    ring
  have harch := C35_archimedes hR hs h
  unfold F6net
  dsimp only
  rw [sum_congr rfl hF, sum_add_distrib, sum_add_distrib, ← sum_smul, sum_dL hN,
    sum_caps (fun _ : ℕ => (1 / 2 * A * e.rho_w * R.CdEnd * Mooring.norm ut) • ut
            + (e.rho_w * R.CaEnd * VEnd R) • at' + (A * e.pdyn 0) • R.q
            + (R.attachedA.map fun x => x.1).sum)
      (fun _ : ℕ => (1 / 2 * A * e.rho_w * R.CdEnd * Mooring.norm ut) • ut
            + (e.rho_w * R.CaEnd * VEnd R) • at' + (-(A * e.pdyn R.N)) • R.q
            + (R.attachedB.map fun x => x.1).sum) R.N, harch]
  have hq1 : (A * e.pdyn 0) • R.q + (-(A * e.pdyn R.N)) • R.q =
      (e.rho_w * (A * R.UnstrLen)) • at' := by
    rw [← add_smul, smul_smul]
    congr 1
    linear_combination A * hpd
  have hw1 : (![0, 0, (e.rho_w - R.rho) * (A * R.UnstrLen) * e.g] : V) =
      ![0, 0, e.rho_w * e.g * volume R] + R.UnstrLen • ![0, 0, -(A * R.rho * e.g)] := by
    funext k
    fin_cases k <;> simp [volume]
    ring
  have hV : VEnd R = 2 / 3 * Real.pi * (R.d / 2) ^ 3 := by unfold VEnd; ring
  rw [hw1, hV]
  generalize (R.attachedA.map fun x => x.1).sum = fA
  generalize (R.attachedB.map fun x => x.1).sum = fB
  have hq2 : (e.rho_w * (A * R.UnstrLen)) • at' - (A * e.pdyn 0) • R.q
      - (-(A * e.pdyn R.N)) • R.q = 0 := by rw [← hq1]; abel
  generalize (A * e.pdyn 0) • R.q = x at *
  generalize (-(A * e.pdyn R.N)) • R.q = y at *
  have hy : y = (e.rho_w * (A * R.UnstrLen)) • at' - x := by rw [← hq1]; abel
  rw [hy]
  generalize (![0, 0, e.rho_w * e.g * volume R] : V) = w1
  generalize (![0, 0, -(A * R.rho * e.g)] : V) = w2
  generalize (2 / 3 * Real.pi * (R.d / 2) ^ 3) = ve
  generalize Mooring.norm (u - ut) = n1
  generalize Mooring.norm ut = n2
  generalize u = u'
  generalize ut = ut'
  generalize at' = a'
  generalize A = A'
  module
end

/-- Water that is set in motion along the x axis with 2 m/s² and flows with 1 m/s -/
noncomputable def surge (R : Rod) : Env :=
  { still with
    U := fun _ => ![1, 0, 0]
    Ud := fun _ => ![2, 0, 0]
    pdyn := fun i => 7 - 1000 * (![2, 0, 0] ⬝ᵥ r R i) }

/-- Non-vacuity: the hypotheses of `C86_force`, and a rod they hold of. -/
example : ∃ a, angles (spar (-20)) = some a ∧ Proper (spar (-20)) ∧
    Submerged (spar (-20)) (surge (spar (-20))) ∧ (spar (-20)).w = 0 ∧
    (∀ i ≤ (spar (-20)).N, (surge (spar (-20))).pdyn i =
      7 - (surge (spar (-20))).rho_w * (![2, 0, 0] ⬝ᵥ r (spar (-20)) i)) ∧
    ∀ i ≤ (spar (-20)).N, (surge (spar (-20))).waterDepth (r (spar (-20)) i 0)
      (r (spar (-20)) i 1) ≤ r (spar (-20)) i 2 := by
  obtain ⟨a, ha⟩ := angles_isSome (spar_proper (-20))
  refine ⟨a, ha, spar_proper _, ?_, rfl, ?_, ?_⟩
  · intro s h0 h1
    have : halfHeight (spar (-20)) = 3 / 5 := by
      change (2 : ℝ) / 2 * Real.sqrt ((3 / 5 : ℝ) * (3 / 5) + 0 * 0) = 3 / 5
      rw [show (3 / 5 : ℝ) * (3 / 5) + 0 * 0 = (3 / 5) ^ 2 by norm_num,
        Real.sqrt_sq (by norm_num)]
      norm_num
    rw [this]
    simp [axisPoint, spar, still, surge] at *
    linarith
  · intro i _
    rfl
  · intro i hi
    rw [r_eq (spar_proper (-20)).hN]
    have : (0 : ℝ) ≤ i := Nat.cast_nonneg i
    simp [surge, still, spar]
    linarith

end MD.Rods
