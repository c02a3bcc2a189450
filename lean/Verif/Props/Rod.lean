import Verif.Lemmas.Rod

/-!
# Rods: buoyancy (C35, C66), inertia (C36), wetted length (C37), input coordinates (C38),
drag (C32), Newton's second law (C67)
-/

set_option linter.unusedSimpArgs false
set_option linter.unusedVariables false

namespace MD.Rods

open Matrix MD.Mat MD.Rot MD.Mooring Finset

variable {R : Rod} {e : Env}

/-! ## Specification -/

/-- A rod as the input file may define it: some segments, positive diameter and length, unit
axis -/
structure Proper (R : Rod) : Prop where
  hN : R.N ≠ 0
  hd : 0 < R.d
  hL : 0 < R.UnstrLen
  hq : R.q ⬝ᵥ R.q = 1

/-- The volume of the rod -/
noncomputable def volume (R : Rod) : ℝ := Real.pi * (R.d / 2) ^ 2 * R.UnstrLen

/-- The point of the axis at distance `s` from end A -/
def axisPoint (R : Rod) (s : ℝ) : V := R.r0 + s • R.q

/-- Half the height of a cross section of the cylinder -/
noncomputable def halfHeight (R : Rod) : ℝ :=
  R.d / 2 * Real.sqrt (R.q 0 * R.q 0 + R.q 1 * R.q 1)

/-- The whole cylinder is under the surface -/
def Submerged (R : Rod) (e : Env) : Prop :=
  ∀ s, 0 ≤ s → s ≤ R.UnstrLen → axisPoint R s 2 + halfHeight R < e.zeta R.N

/-- The rod is exactly vertical, or at least a millionth away from it -/
def HeadingOk (R : Rod) : Prop :=
  (R.q 0 = 0 ∧ R.q 1 = 0) ∨ 1 / 10 ^ 6 ≤ Real.sqrt (R.q 0 * R.q 0 + R.q 1 * R.q 1)

/-- Mass matrix of a uniform solid cylinder about the centre of one of its ends, `u` pointing to
the other end: centre of mass at half length, inertia `m (3 r² + L²) / 12` across and `m r² / 2`
along the axis, both about the centre of mass -/
noncomputable def cylinder (mm rad len : ℝ) (u : V) : M6 ℝ :=
  let c := (len / 2) • u
  fromBlocks (mm • 1) (mm • getH c) (mm • getH c)ᵀ
    ((mm * (3 * rad ^ 2 + len ^ 2) / 12) • (1 - vecMulVec u u)
      + (mm * rad ^ 2 / 2) • vecMulVec u u
      + mm • ((c ⬝ᵥ c) • (1 : M3 ℝ) - vecMulVec c c))

/-- A rod to try the statements on: 10 m long, 2 segments, along (3/5, 0, 4/5) -/
noncomputable def spar (z : ℝ) : Rod where
  N := 2
  d := 2
  rho := 500
  Can := 1
  Cat := 1
  Cdn := 1
  CdEnd := 1
  CaEnd := 1
  UnstrLen := 10
  r0 := ![0, 0, z]
  q := ![3 / 5, 0, 4 / 5]
  vA := 0
  w := 0
  attachedA := []
  attachedB := []

theorem spar_proper (z : ℝ) : Proper (spar z) where
  hN := by simp [spar]
  hd := by norm_num [spar]
  hL := by norm_num [spar]
  hq := by simp [spar, dotProduct, Fin.sum_univ_three]; norm_num

/-- Still water -/
noncomputable def still : Env where
  rho_w := 1000
  g := 10
  kb := 0
  cb := 0
  frictionCoefficient := 0
  fricDamp := 0
  statDynFricScale := 1
  waterDepth := fun _ _ => -200
  zeta := fun _ => 0
  U := fun _ => 0
  Ud := fun _ => 0
  pdyn := fun _ => 0

theorem angles_some (hR : Proper R) {a : ℝ × ℝ} (h : angles R = some a) :
    Real.cos a.1 = R.q 2 ∧ Real.sin a.1 = Real.sqrt (R.q 0 * R.q 0 + R.q 1 * R.q 1) := by
  unfold angles at h
  rw [if_neg hR.hN] at h
  exact angle_spec h hR.hq

theorem angles_isSome (hR : Proper R) : ∃ a, angles R = some a := by
  unfold angles
  rw [if_neg hR.hN]
  exact orientationAngles_isSome hR.hq

theorem axis_spherical (hR : Proper R) (hh : HeadingOk R) {a : ℝ × ℝ} (h : angles R = some a) :
    R.q = ![Real.cos a.2 * Real.sin a.1, Real.sin a.2 * Real.sin a.1, Real.cos a.1] := by
  have h1 := angles_some hR h
  have h' := h
  unfold angles at h'
  rw [if_neg hR.hN] at h'
  have h2 := heading_spec h' hR.hq hh
  funext k
  fin_cases k
  · exact h2.1.symm
  · exact h2.2.symm
  · exact h1.1.symm

/-! ## C35: Archimedes -/

theorem node_dist (hR : Proper R) {i : ℕ} (hi : i ≤ R.N) :
    0 ≤ (i : ℝ) / R.N * R.UnstrLen ∧ (i : ℝ) / R.N * R.UnstrLen ≤ R.UnstrLen := by
  have hN : (0 : ℝ) < R.N := by exact_mod_cast Nat.pos_of_ne_zero hR.hN
  have hi' : (i : ℝ) ≤ R.N := by exact_mod_cast hi
  have hL := hR.hL
  constructor
  · positivity
  · have : (i : ℝ) / R.N ≤ 1 := by rw [div_le_one hN]; exact hi'
    nlinarith

theorem node_below (hR : Proper R) (hs : Submerged R e) {a : ℝ × ℝ} (h : angles R = some a)
    {i : ℕ} (hi : i ≤ R.N) : z1hi R (r R i 2) (Real.sin a.1) < zetaI R e := by
  have h1 := hs _ (node_dist hR hi).1 (node_dist hR hi).2
  have h2 := (angles_some hR h).2
  rw [r_eq hR.hN]
  unfold z1hi zetaI
  unfold axisPoint halfHeight at h1
  rw [h2, abs_of_nonneg (Real.sqrt_nonneg _)]
  linarith

theorem node_below_axis (hR : Proper R) (hs : Submerged R e) {i : ℕ} (hi : i ≤ R.N) :
    r R i 2 < zetaI R e := by
  have h1 := hs _ (node_dist hR hi).1 (node_dist hR hi).2
  rw [r_eq hR.hN]
  unfold axisPoint halfHeight at h1
  have h3 : 0 ≤ R.d / 2 * Real.sqrt (R.q 0 * R.q 0 + R.q 1 * R.q 1) :=
    mul_nonneg (by have := hR.hd; linarith) (Real.sqrt_nonneg _)
  unfold zetaI
  linarith

theorem vof_submerged (hR : Proper R) (hs : Submerged R e) {a : ℝ × ℝ} (h : angles R = some a)
    {i : ℕ} (hi : i ≤ R.N) : vof R e a.1 i = 1 := by
  have hh0 : h0 R e = R.UnstrLen := by
    unfold h0
    simp only
    rw [if_pos ⟨node_below_axis hR hs (Nat.zero_le _), node_below_axis hR hs (le_refl _)⟩]
  have hv : vof0 (h0 R e) (Lsum R i) (dL R i) = 1 := by
    rw [hh0]
    unfold vof0
    rw [if_neg (not_lt.mpr hR.hL.le), if_pos]
    rw [← Lsum_top hR.hN]
    exact Lsum_mono hR.hL.le (show i + 1 ≤ R.N + 1 by omega)
  have hb := node_below hR hs h hi
  have hlo : ¬ z1lo R (r R i 2) (Real.sin a.1) > zetaI R e := by
    unfold z1hi at hb
    unfold z1lo
    have : 0 ≤ 1 / 2 * R.d * |Real.sin a.1| := by have := hR.hd; positivity
    linarith
  unfold vof crossSection
  rw [hv, if_neg hlo, if_pos hb]
  dsimp only
  have hpi := Real.pi_pos.ne'
  have hd := hR.hd.ne'
  have hsc := Real.sin_sq_add_cos_sq a.1
  have h4 : Real.pi * (1 / 4) * R.d * R.d / (1 / 4 * Real.pi * R.d * R.d) = 1 := by
    rw [div_eq_one_iff_eq (by positivity)]; ring
  rw [h4]
  nlinarith

theorem endWet_submerged (hR : Proper R) (hs : Submerged R e) {a : ℝ × ℝ}
    (h : angles R = some a) {i : ℕ} (hi : i ≤ R.N) : endWet R e a.1 i := by
  have hb := node_below hR hs h hi
  unfold endWet z1lo
  unfold z1hi at hb
  have : 0 ≤ 1 / 2 * R.d * |Real.sin a.1| := by have := hR.hd; positivity
  linarith

theorem zA_submerged (hR : Proper R) (hs : Submerged R e) {a : ℝ × ℝ}
    (h : angles R = some a) {i : ℕ} (hi : i ≤ R.N) : zA R e a.1 i = r R i 2 := by
  have hb := node_below hR hs h hi
  have hw := endWet_submerged hR hs h hi
  unfold endWet at hw
  unfold zA crossSection
  rw [if_neg (not_lt.mpr hw.le), if_pos hb]

/-- lateral direction of source/Rod.cpp:1080-1082 -/
noncomputable def eTheta (a : ℝ × ℝ) : V :=
  ![Real.cos a.2 * Real.cos a.1, Real.sin a.2 * Real.cos a.1, -Real.sin a.1]

/-- axial direction of source/Rod.cpp:1132-1134 -/
noncomputable def eAxis (a : ℝ × ℝ) : V :=
  ![Real.cos a.2 * Real.sin a.1, Real.sin a.2 * Real.sin a.1, Real.cos a.1]

theorem axial_eq (F : ℝ) (a : ℝ × ℝ) : axial F a.1 a.2 = F • eAxis a := by
  funext k
  fin_cases k <;> simp [axial, eAxis, mul_assoc]

theorem BoSide_submerged (hR : Proper R) (hs : Submerged R e) {a : ℝ × ℝ}
    (h : angles R = some a) {i : ℕ} (hi : i ≤ R.N) :
    BoSide R e a.1 a.2 i
      = dL R i • ((-(area R * e.rho_w * e.g * Real.sin a.1)) • eTheta a) := by
  unfold BoSide
  rw [if_neg hR.hN, vof_submerged hR hs h hi, v_eq hR.hN]
  funext k
  fin_cases k <;> simp [eTheta] <;> ring

/-- The buoyancy of the caps of a submerged rod -/
theorem sum_caps {E : Type} [AddCommGroup E] (f g : ℕ → E) (n : ℕ) :
    ∑ i ∈ range (n + 1), ((if i = 0 then f i else 0) + (if i = n then g i else 0))
      = f 0 + g n := by
  rw [sum_add_distrib]
  congr 1
  · rw [sum_ite_eq' (range (n + 1)) 0 f]; simp
  · rw [sum_ite_eq' (range (n + 1)) n g]; simp

theorem Bo_submerged (hR : Proper R) (hs : Submerged R e) {a : ℝ × ℝ}
    (h : angles R = some a) {i : ℕ} (hi : i ≤ R.N) :
    Bo R e a.1 a.2 i
      = dL R i • ((-(area R * e.rho_w * e.g * Real.sin a.1)) • eTheta a)
        + ((if i = 0 then (-(area R * e.rho_w * e.g * r R i 2)) • eAxis a else 0)
          + (if i = R.N then (area R * e.rho_w * e.g * r R i 2) • eAxis a else 0)) := by
  unfold Bo BoA BoB
  rw [BoSide_submerged hR hs h hi, vof_submerged hR hs h hi, zA_submerged hR hs h hi, add_assoc]
  have hw := endWet_submerged hR hs h hi
  simp only [hw, and_true, axial_eq]
  congr 2
  · split_ifs
    · congr 1; ring
    · rfl
  · split_ifs
    · congr 1; ring
    · rfl

theorem r_end (hR : Proper R) : r R R.N 2 = r R 0 2 + R.UnstrLen * R.q 2 := by
  have hN' : (R.N : ℝ) ≠ 0 := by exact_mod_cast hR.hN
  rw [r_eq hR.hN, r_zero, div_self hN']
  simp

/-- C35: the buoyancy of a submerged rod is the weight of the water it displaces, upwards. -/
theorem C35_archimedes (hR : Proper R) (hs : Submerged R e) {a : ℝ × ℝ}
    (h : angles R = some a) :
    ∑ i ∈ range (R.N + 1), Bo R e a.1 a.2 i = ![0, 0, e.rho_w * e.g * volume R] := by
  have h1 : ∀ i ∈ range (R.N + 1), Bo R e a.1 a.2 i = _ := fun i hi =>
    Bo_submerged hR hs h (by rw [mem_range] at hi; omega)
  rw [sum_congr rfl h1, sum_add_distrib, ← sum_smul, sum_dL hR.hN, sum_caps, r_end hR]
  have hc := (angles_some hR h).1
  have hsc := Real.sin_sq_add_cos_sq a.1
  rw [← hc]
  unfold eTheta eAxis area volume
  generalize Real.sin a.1 = s at *
  generalize Real.cos a.1 = c at *
  funext k
  fin_cases k
  · simp; ring
  · simp; ring
  · simp; linear_combination (e.rho_w * e.g * Real.pi * R.d ^ 2 / 4 * R.UnstrLen) * hsc

/-- C35: and it acts at the middle of the rod. -/
theorem C35_centre_of_buoyancy (hR : Proper R) (hh : HeadingOk R) (hs : Submerged R e)
    {a : ℝ × ℝ} (h : angles R = some a) :
    ∑ i ∈ range (R.N + 1), (r R i - r R 0) ⨯₃ Bo R e a.1 a.2 i + MextCap R e a.1 a.2
      = ((R.UnstrLen / 2) • R.q) ⨯₃ ![0, 0, e.rho_w * e.g * volume R] := by
  have hcap : MextCap R e a.1 a.2 = 0 := by
    unfold MextCap
    simp only
    rw [if_pos (endWet_submerged hR hs h (Nat.zero_le _)),
      if_pos (endWet_submerged hR hs h (le_refl _)), vof_submerged hR hs h (Nat.zero_le _),
      vof_submerged hR hs h (le_refl _)]
    funext k
    fin_cases k <;> simp
  have hq := axis_spherical hR hh h
  have hq' : R.q = eAxis a := hq
  have h1 : ∀ i ∈ range (R.N + 1), (r R i - r R 0) ⨯₃ Bo R e a.1 a.2 i
      = (dL R i * ((i : ℝ) / R.N * R.UnstrLen)) •
        (R.q ⨯₃ ((-(area R * e.rho_w * e.g * Real.sin a.1)) • eTheta a)) := by
    intro i hi
    have hi' : i ≤ R.N := by rw [mem_range] at hi; omega
    rw [Bo_submerged hR hs h hi', r_rel hR.hN, ← hq', map_add, map_add]
    have hz : ∀ x y : ℝ, (x • R.q) ⨯₃ (y • R.q) = 0 := by
      intro x y
      rw [map_smul, map_smul, LinearMap.smul_apply, cross_self, smul_zero, smul_zero]
    have e1 : ∀ x : ℝ, ∀ p : Prop, [Decidable p] → ∀ y : ℝ,
        (x • R.q) ⨯₃ (if p then y • R.q else 0) = 0 := by
      intro x p _ y
      split_ifs
      · exact hz x y
      · exact map_zero _
    rw [e1, e1, add_zero, add_zero]
    funext k
    fin_cases k <;> simp [cross_apply] <;> ring
  rw [sum_congr rfl h1, ← sum_smul, sum_dL_x hR.hN, hcap, add_zero]
  rw [hq]
  unfold eTheta area volume
  have hsc := Real.sin_sq_add_cos_sq a.1
  generalize Real.sin a.1 = s at *
  generalize Real.cos a.1 = c at *
  funext k
  fin_cases k
  · simp [cross_apply]
    linear_combination
      (R.UnstrLen ^ 2 * Real.pi * R.d ^ 2 * e.rho_w * e.g * s * Real.sin a.2 / 8) * hsc
  · simp [cross_apply]
    linear_combination
      (-(R.UnstrLen ^ 2 * Real.pi * R.d ^ 2 * e.rho_w * e.g * s * Real.cos a.2 / 8)) * hsc
  · simp [cross_apply]; right; ring

/-- C35: zero-length rods displace nothing. -/
theorem C35_zero_length (hN : R.N = 0) (phi beta : ℝ) : Bo R e phi beta 0 = 0 := by
  unfold Bo BoSide BoA BoB
  rw [if_pos hN]
  by_cases hw : endWet R e phi 0
  · rw [if_pos ⟨rfl, hw⟩, if_pos ⟨hN.symm, hw⟩]
    funext k
    fin_cases k <;> simp [axial]
  · simp [hw]

/-- The inclined rod, 20 m deep -/
example : Proper (spar (-20)) ∧ HeadingOk (spar (-20)) ∧ Submerged (spar (-20)) still := by
  have hsq : Real.sqrt ((3 / 5 : ℝ) * (3 / 5) + 0 * 0) = 3 / 5 := by
    rw [show (3 / 5 : ℝ) * (3 / 5) + 0 * 0 = (3 / 5) ^ 2 by norm_num]
    exact Real.sqrt_sq (by norm_num)
  refine ⟨spar_proper _, Or.inr ?_, ?_⟩
  · change 1 / 10 ^ 6 ≤ Real.sqrt ((3 / 5 : ℝ) * (3 / 5) + 0 * 0)
    rw [hsq]; norm_num
  · intro s h0 h1
    simp only [spar] at h1
    have : halfHeight (spar (-20)) = 3 / 5 := by
      change (2 : ℝ) / 2 * Real.sqrt ((3 / 5 : ℝ) * (3 / 5) + 0 * 0) = 3 / 5
      rw [hsq]; norm_num
    rw [this]
    simp [axisPoint, spar, still]
    linarith

/-! ## C66: floating rods -/

/-- A vertical rod, end A down, in the surface of still water at height 0 -/
structure Floating (R : Rod) (e : Env) : Prop where
  proper : Proper R
  vertical : R.q = ![0, 0, 1]
  still : e.zeta R.N = 0
  wet : R.r0 2 < 0
  dry : 0 < R.r0 2 + R.UnstrLen

/-- The depth of end A -/
def draft (R : Rod) : ℝ := -R.r0 2

theorem floating_angles (hf : Floating R e) {a : ℝ × ℝ} (h : angles R = some a) :
    Real.cos a.1 = 1 ∧ Real.sin a.1 = 0 := by
  have := angles_some hf.proper h
  rw [hf.vertical] at this
  simpa using this

/-- The buoyancy that the code gives to a floating vertical rod: reduced by the submerged fraction
of the first node -/
theorem floating_buoyancy (hf : Floating R e) {a : ℝ × ℝ} (h : angles R = some a) :
    ∑ i ∈ range (R.N + 1), Bo R e a.1 a.2 i
      = ![0, 0, vof0 (draft R) 0 (R.UnstrLen / R.N / 2)
          * (e.rho_w * e.g * (Real.pi * (R.d / 2) ^ 2 * draft R))] := by
  have hR := hf.proper
  obtain ⟨hc, hs⟩ := floating_angles hf h
  have hz : zetaI R e = 0 := hf.still
  have hN0 : r R R.N 2 = R.r0 2 + R.UnstrLen := by
    rw [r_end hR, r_zero, hf.vertical]; simp
  have hh0 : h0 R e = draft R := by
    unfold h0
    simp only [hz, hN0, r_zero]
    have := hf.wet
    have := hf.dry
    rw [if_neg (by intro h; linarith [h.2]), if_pos ⟨hf.wet, hf.dry⟩, hf.vertical]
    simp [draft]
  have hside : ∀ i, BoSide R e a.1 a.2 i = 0 := by
    intro i
    unfold BoSide
    rw [if_neg hR.hN, hs]
    funext k
    fin_cases k <;> simp
  have hB : ∀ i, BoB R e a.1 a.2 i = 0 := by
    intro i
    unfold BoB
    rw [if_neg]
    rintro ⟨rfl, h2⟩
    unfold endWet z1lo at h2
    rw [hs, hz, hN0] at h2
    simp at h2
    linarith [hf.dry]
  have hw : endWet R e a.1 0 := by
    unfold endWet z1lo
    rw [hs, hz, r_zero]
    simpa using hf.wet
  have hA : zA R e a.1 0 = R.r0 2 := by
    unfold zA crossSection z1lo z1hi
    rw [hs, hz, r_zero]
    rw [if_neg (by simpa using hf.wet.le), if_pos (by simpa using hf.wet)]
  have hdl : dL R 0 = R.UnstrLen / R.N / 2 := by
    unfold dL l
    rw [if_pos rfl, if_neg hR.hN]; ring
  have hv : vof R e a.1 0 = vof0 (draft R) 0 (R.UnstrLen / R.N / 2) := by
    unfold vof
    rw [hs, hc, hh0, hdl]
    simp [Lsum]
  rw [sum_range_succ']
  have h1 : ∀ i ∈ range R.N, Bo R e a.1 a.2 (i + 1) = 0 := by
    intro i _
    unfold Bo
    rw [hside, hB]
    unfold BoA
    rw [if_neg (by simp)]
    simp
  rw [sum_congr rfl h1, sum_const_zero, zero_add]
  unfold Bo
  rw [hside, hB]
  unfold BoA
  rw [if_pos ⟨rfl, hw⟩, hA, hv]
  unfold axial area draft
  rw [hs, hc]
  funext k
  fin_cases k
  · simp
  · simp
  · simp; ring

/-- C66: the buoyancy of a vertical rod floating in still water is the weight of the water it
displaces, if at least half a segment is wet. -/
theorem C66_floating_partial (hf : Floating R e) {a : ℝ × ℝ} (h : angles R = some a)
    (hw : R.UnstrLen / R.N / 2 ≤ draft R) :
    ∑ i ∈ range (R.N + 1), Bo R e a.1 a.2 i
      = ![0, 0, e.rho_w * e.g * (Real.pi * (R.d / 2) ^ 2 * draft R)] := by
  rw [floating_buoyancy hf h]
  have : vof0 (draft R) 0 (R.UnstrLen / R.N / 2) = 1 := by
    unfold vof0
    have : 0 < draft R := by have := hf.wet; unfold draft; linarith
    rw [if_neg (by linarith), if_pos (by linarith)]
  rw [this, one_mul]

/-- C66 fails when less than half a segment is wet: the buoyancy is short of the displaced water. -/
theorem C66_dipped_false (hf : Floating R e) {a : ℝ × ℝ} (h : angles R = some a)
    (hw : draft R < R.UnstrLen / R.N / 2) (hr : 0 < e.rho_w) (hg : 0 < e.g) :
    (∑ i ∈ range (R.N + 1), Bo R e a.1 a.2 i) 2
      < e.rho_w * e.g * (Real.pi * (R.d / 2) ^ 2 * draft R) := by
  rw [floating_buoyancy hf h]
  have h1 : 0 < draft R := by have := hf.wet; unfold draft; linarith
  have h2 : vof0 (draft R) 0 (R.UnstrLen / R.N / 2) < 1 := by
    unfold vof0
    rw [if_neg (by linarith), if_neg (by linarith), if_pos h1, sub_zero,
      div_lt_one (by linarith)]
    exact hw
  have h3 : 0 < e.rho_w * e.g * (Real.pi * (R.d / 2) ^ 2 * draft R) := by
    have := Real.pi_pos
    have := hf.proper.hd
    positivity
  change vof0 (draft R) 0 (R.UnstrLen / R.N / 2) * _ < _
  exact mul_lt_of_lt_one_left h3 h2

/-- A vertical rod of 10 m and 2 segments with end A at height `z` -/
noncomputable def buoy (z : ℝ) : Rod := { spar z with q := ![0, 0, 1] }

theorem buoy_floating {z : ℝ} (h : z < 0) (h' : -10 < z) : Floating (buoy z) still where
  proper := ⟨by simp [buoy, spar], by norm_num [buoy, spar], by norm_num [buoy, spar],
    by simp [buoy, spar, dotProduct, Fin.sum_univ_three]⟩
  vertical := rfl
  still := rfl
  wet := by simpa [buoy, spar] using h
  dry := by simp [buoy, spar]; linarith

/-- 4 m of draft for segments of 5 m -/
example : Floating (buoy (-4)) still ∧ (buoy (-4)).UnstrLen / (buoy (-4)).N / 2 ≤ draft (buoy (-4)) :=
  ⟨buoy_floating (by norm_num) (by norm_num), by simp [buoy, spar, draft]; norm_num⟩

/-- 1 m of draft for segments of 5 m -/
example : Floating (buoy (-1)) still ∧ draft (buoy (-1)) < (buoy (-1)).UnstrLen / (buoy (-1)).N / 2 :=
  ⟨buoy_floating (by norm_num) (by norm_num), by simp [buoy, spar, draft]; norm_num⟩

/-! ## C32: drag -/

theorem vof_nonneg (hd : 0 ≤ R.d) (hL : 0 ≤ R.UnstrLen) (phi : ℝ) (i : ℕ) :
    0 ≤ vof R e phi i := by
  unfold vof
  have h1 := (vof0_range (h := h0 R e) (Lsum_nonneg hL i) (dL_nonneg (R := R) hL i)).1
  have h2 := crossSection_nonneg hd (r R i 2) (zetaI R e) (Real.sin phi)
  have hpi := Real.pi_pos
  rw [mul_assoc, mul_assoc]
  have h3 := mul_self_nonneg (Real.cos phi)
  have h4 := mul_self_nonneg (Real.sin phi)
  apply add_nonneg (mul_nonneg h1 h3)
  exact mul_nonneg (div_nonneg h2 (by positivity)) h4

/-- C32: the drag on a rod node follows the flow relative to the node, whatever its motion, the
orientation and the part of the rod that is wet. -/
theorem C32_rod_drag (hd : 0 ≤ R.d) (hL : 0 ≤ R.UnstrLen) (hq : R.q ⬝ᵥ R.q = 1)
    (hr : 0 ≤ e.rho_w) (hn : 0 ≤ R.Cdn) (he : 0 ≤ R.CdEnd) (phi : ℝ) (i : ℕ) :
    0 ≤ (Dp R e phi i + Dq R e phi i) ⬝ᵥ (e.U i - rd R i) := by
  have hv := vof_nonneg (e := e) hd hL phi i
  have hl := dL_nonneg (R := R) hL i
  have hpi := Real.pi_pos
  have ha : 0 ≤ area R := by unfold area; positivity
  change 0 ≤ (Dp R e phi i + Dq R e phi i) ⬝ᵥ vi R e i
  have h1 : vq R e i ⬝ᵥ vi R e i = (vi R e i ⬝ᵥ R.q) ^ 2 := by
    unfold vq
    rw [smul_dotProduct, dotProduct_comm R.q, smul_eq_mul]; ring
  have h2 : vp R e i ⬝ᵥ vi R e i = vp R e i ⬝ᵥ vp R e i := by
    have : vp R e i ⬝ᵥ vq R e i = 0 := by
      unfold vp vq
      rw [sub_dotProduct, smul_dotProduct, dotProduct_smul, dotProduct_smul, hq]
      simp only [smul_eq_mul]; ring
    have h3 : vi R e i = vp R e i + vq R e i := by unfold vp; abel
    conv_lhs => rw [h3]
    rw [dotProduct_add, this, add_zero]
  have hp : 0 ≤ Dp R e phi i ⬝ᵥ vi R e i := by
    unfold Dp
    split_ifs
    · simp
    · rw [smul_dotProduct, h2, smul_eq_mul]
      have h5 := Mooring.norm_nonneg (vp R e i)
      have h6 : 0 ≤ vp R e i ⬝ᵥ vp R e i := by
        rw [← norm_sq]; positivity
      positivity
  have hqq : 0 ≤ ((1 / 2 * vof R e phi i * area R * e.rho_w * R.CdEnd * Mooring.norm (vq R e i))
      • vq R e i) ⬝ᵥ vi R e i := by
    rw [smul_dotProduct, h1, smul_eq_mul]
    have h5 := Mooring.norm_nonneg (vq R e i)
    positivity
  rw [add_dotProduct]
  apply add_nonneg hp
  unfold Dq
  rw [add_dotProduct]
  apply add_nonneg <;> split_ifs
  · exact hqq
  · simp
  · exact hqq
  · simp

/-- The caps do drag: a rod sinking in still water -/
example : ∃ R : Rod, ∃ a : ℝ × ℝ, Proper R ∧ angles R = some a ∧
    0 < (Dp R still a.1 0 + Dq R still a.1 0) ⬝ᵥ (still.U 0 - rd R 0) := by
  have hp : Proper { buoy (-20) with vA := ![0, 0, -1] } :=
    ⟨by simp [buoy, spar], by norm_num [buoy, spar], by norm_num [buoy, spar],
      by simp [buoy, spar, dotProduct, Fin.sum_univ_three]⟩
  obtain ⟨a, ha⟩ := angles_isSome hp
  refine ⟨_, a, hp, ha, ?_⟩
  generalize hR : ({ buoy (-20) with vA := ![0, 0, -1] } : Rod) = R at *
  have hsub : Submerged R still := by
    intro s h0 h1
    subst hR
    simp only [buoy, spar] at h1
    simp [axisPoint, halfHeight, buoy, spar, still]
    linarith
  have hv : vi R still 0 = ![0, 0, 1] := by
    unfold vi
    rw [rd_zero]; subst hR
    funext k; fin_cases k <;> simp [still]
  have hq : R.q = ![0, 0, 1] := by subst hR; rfl
  have hvq : vq R still 0 = ![0, 0, 1] := by
    unfold vq
    rw [hv, hq]
    funext k; fin_cases k <;> simp [dotProduct, Fin.sum_univ_three]
  have hvp : vp R still 0 = 0 := by unfold vp; rw [hv, hvq, sub_self]
  have hn : Mooring.norm (![0, 0, 1] : V) = 1 :=
    norm_eq _ 1 (by norm_num) (by simp [dotProduct, Fin.sum_univ_three])
  have hN2 : R.N = 2 := by subst hR; rfl
  have hD : Dp R still a.1 0 = 0 := by unfold Dp; rw [hvp]; simp
  have hDq : Dq R still a.1 0
      = (1 / 2 * area R * 1000 * 1 * 1 : ℝ) • (![0, 0, 1] : V) := by
    unfold Dq
    rw [if_pos ⟨rfl, endWet_submerged hp hsub ha (Nat.zero_le _)⟩, if_neg (by rw [hN2]; simp),
      hvq, hn, vof_submerged hp hsub ha (Nat.zero_le _)]
    have : R.CdEnd = 1 := by subst hR; rfl
    rw [this]
    simp [still]
  have hu : still.U 0 - rd R 0 = ![0, 0, 1] := hv
  rw [hD, hDq, hu]
  have ha' : 0 < area R := by
    have := hp.hd
    have := Real.pi_pos
    unfold area; positivity
  simp [dotProduct, Fin.sum_univ_three]
  linarith

end MD.Rods
