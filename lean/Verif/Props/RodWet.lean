import Verif.Props.Rod

/-!
# Rods: wetted length (C37)
-/

set_option linter.unusedSimpArgs false
set_option linter.unusedVariables false

namespace MD.Rods

open Matrix MD.Mat MD.Rot MD.Mooring Finset

variable {R : Rod} {e : Env}

/-- `h` is the wetted length of a rod with end A down: the points of the axis at less than `h` of
end A are below the surface and those beyond are not -/
def WettedFromA (R : Rod) (e : Env) (h : ℝ) : Prop :=
  0 ≤ h ∧ h ≤ R.UnstrLen ∧
    ∀ s, 0 ≤ s → s ≤ R.UnstrLen → (axisPoint R s 2 < e.zeta R.N → s ≤ h) ∧
      (s < h → axisPoint R s 2 < e.zeta R.N)

/-- The sum over the nodes of the submerged length attributed to them -/
noncomputable def nodalWet (R : Rod) (e : Env) : ℝ :=
  ∑ i ∈ range (R.N + 1), vof0 (h0 R e) (Lsum R i) (dL R i) * dL R i

theorem axis_z (s : ℝ) : axisPoint R s 2 = R.r0 2 + s * R.q 2 := by simp [axisPoint]

theorem r_N (hR : Proper R) : r R R.N 2 = axisPoint R R.UnstrLen 2 := by
  rw [axis_z, r_end hR, r_zero]

/-- C37: with end A under the surface and end B not exactly at it, the submerged lengths of the
nodes add up to the submerged length of the rod. -/
theorem C37_wetted_partial (hR : Proper R) (hA : R.r0 2 < e.zeta R.N)
    (hB : axisPoint R R.UnstrLen 2 ≠ e.zeta R.N) : WettedFromA R e (nodalWet R e) := by
  have hL := hR.hL
  have hz : zetaI R e = e.zeta R.N := rfl
  have key : ∀ h, 0 ≤ h → h ≤ R.UnstrLen → h0 R e = h → nodalWet R e = h := by
    intro h h1 h2 h3
    unfold nodalWet
    rw [h3, sum_vof0 hR.hN hL h1, Lsum_top hR.hN, min_eq_left h2]
  rcases lt_or_gt_of_ne hB with hlt | hgt
  · have hh : h0 R e = R.UnstrLen := by
      unfold h0
      simp only
      rw [if_pos ⟨by rw [r_zero]; exact hA, by rw [r_N hR]; exact hlt⟩]
    rw [key _ hL.le (le_refl _) hh]
    refine ⟨hL.le, le_refl _, fun s h1 h2 => ⟨fun _ => h2, fun _ => ?_⟩⟩
    rw [axis_z] at hlt ⊢
    by_contra hc
    push Not at hc
    have h5 : 0 ≤ (e.zeta R.N - R.r0 2) * (R.UnstrLen - s) := by
      apply mul_nonneg <;> linarith
    have h6 : 0 < s * (e.zeta R.N - (R.r0 2 + R.UnstrLen * R.q 2)) ∨ s = 0 := by
      rcases h1.lt_or_eq with h | h
      · left; apply mul_pos h; linarith
      · right; exact h.symm
    rcases h6 with h6 | h6
    · nlinarith
    · subst h6; linarith
  · have hq : 0 < R.q 2 := by
      rw [axis_z] at hgt
      by_contra hc
      push Not at hc
      nlinarith
    have hh : h0 R e = (e.zeta R.N - R.r0 2) / R.q 2 := by
      unfold h0
      simp only
      rw [if_neg (by rw [r_N hR]; intro h; exact absurd h.2 (not_lt.mpr hgt.le)),
        if_pos ⟨by rw [r_zero]; exact hA, by rw [r_N hR]; exact hgt⟩, r_zero]
      rfl
    have h1 : 0 ≤ (e.zeta R.N - R.r0 2) / R.q 2 := div_nonneg (by linarith) hq.le
    have h2 : (e.zeta R.N - R.r0 2) / R.q 2 ≤ R.UnstrLen := by
      rw [div_le_iff₀ hq]
      rw [axis_z] at hgt
      linarith
    rw [key _ h1 h2 hh]
    refine ⟨h1, h2, fun s h3 h4 => ⟨fun h => ?_, fun h => ?_⟩⟩
    · rw [axis_z] at h
      rw [le_div_iff₀ hq]; linarith
    · rw [axis_z]
      rw [lt_div_iff₀ hq] at h; linarith

/-- C37: with both ends above the surface nothing is submerged. -/
theorem C37_dry (hR : Proper R) (hA : e.zeta R.N < R.r0 2)
    (hB : e.zeta R.N < axisPoint R R.UnstrLen 2) : nodalWet R e = 0 := by
  have hh : h0 R e = 0 := by
    unfold h0 zetaI
    simp only
    rw [r_N hR, r_zero]
    rw [if_neg (by intro h; linarith [h.1]), if_neg (by intro h; linarith [h.1]),
      if_neg (by intro h; linarith [h.1])]
  unfold nodalWet
  rw [hh, sum_vof0 hR.hN hR.hL (le_refl _), Lsum_top hR.hN, min_eq_left hR.hL.le]

/-- C37 fails upside down: with end B under the surface and end A above it every node is taken as
fully submerged, whatever the part of the rod that is. -/
theorem C37_upside_down_false (hR : Proper R) (hA : e.zeta R.N < R.r0 2)
    (hB : axisPoint R R.UnstrLen 2 < e.zeta R.N) :
    (∀ i, vof0 (h0 R e) (Lsum R i) (dL R i) = 1) ∧ nodalWet R e = R.UnstrLen ∧
      ∃ h, 0 < h ∧ ∀ s, 0 ≤ s → s < h → e.zeta R.N < axisPoint R s 2 := by
  have hL := hR.hL
  have hq : R.q 2 < 0 := by
    rw [axis_z] at hB
    by_contra hc
    push Not at hc
    nlinarith
  have hh : h0 R e < 0 := by
    unfold h0 zetaI
    simp only
    rw [r_N hR, r_zero]
    rw [if_neg (by intro h; linarith [h.1]), if_neg (by intro h; linarith [h.1]),
      if_pos ⟨hB, hA⟩]
    apply div_neg_of_pos_of_neg _ hq
    linarith
  have h1 : ∀ i, vof0 (h0 R e) (Lsum R i) (dL R i) = 1 := by
    intro i
    unfold vof0
    rw [if_pos hh, if_pos]
    have := Lsum_nonneg (R := R) hL.le i
    have := dL_nonneg (R := R) hL.le i
    linarith
  refine ⟨h1, ?_, (e.zeta R.N - R.r0 2) / R.q 2, ?_, ?_⟩
  · unfold nodalWet
    simp only [h1, one_mul]
    exact sum_dL hR.hN
  · exact div_pos_of_neg_of_neg (by linarith) hq
  · intro s h0 hs
    rw [axis_z]
    rw [lt_div_iff_of_neg hq] at hs
    linarith

/-- C37 fails when end B is exactly at the surface: the rod, all of it submerged, is taken as
dry. -/
theorem C37_touching_false (hR : Proper R) (hA : R.r0 2 < e.zeta R.N)
    (hB : axisPoint R R.UnstrLen 2 = e.zeta R.N) :
    nodalWet R e = 0 ∧ ∀ s, 0 ≤ s → s < R.UnstrLen → axisPoint R s 2 < e.zeta R.N := by
  have hL := hR.hL
  constructor
  · have hh : h0 R e = 0 := by
      unfold h0 zetaI
      simp only
      rw [r_N hR, r_zero]
      rw [if_neg (by intro h; linarith [h.2]), if_neg (by intro h; linarith [h.2]),
        if_neg (by intro h; linarith [h.1])]
    unfold nodalWet
    rw [hh, sum_vof0 hR.hN hL (le_refl _), Lsum_top hR.hN, min_eq_left hL.le]
  · intro s h0 h1
    rw [axis_z] at hB ⊢
    have : 0 < R.q 2 := by
      by_contra hc
      push Not at hc
      nlinarith
    nlinarith

/-- C37: the submerged fraction of a node is in [0, 1], unless the waterline cuts the cross section
of a nearly vertical rod. -/
theorem C37_fraction_partial (hd : 0 < R.d) (hL : 0 ≤ R.UnstrLen) (phi : ℝ) (i : ℕ)
    (hs : 1 / 1000 ≤ |Real.sin phi| ∨ z1lo R (r R i 2) (Real.sin phi) > e.zeta R.N ∨
      z1hi R (r R i 2) (Real.sin phi) < e.zeta R.N) :
    0 ≤ vof R e phi i ∧ vof R e phi i ≤ 1 := by
  refine ⟨vof_nonneg hd.le hL phi i, ?_⟩
  unfold vof
  have h1 := (vof0_range (h := h0 R e) (Lsum_nonneg hL i) (dL_nonneg (R := R) hL i)).2
  have h2 := crossSection_le hd (z := r R i 2) (ze := zetaI R e) (s := Real.sin phi) hs
  have hpi := Real.pi_pos
  have h3 : (crossSection R (r R i 2) (zetaI R e) (Real.sin phi)).1
      / (1 / 4 * Real.pi * R.d * R.d) ≤ 1 := by
    rw [div_le_one (by positivity)]; exact h2
  have hsc := Real.sin_sq_add_cos_sq phi
  generalize vof0 (h0 R e) (Lsum R i) (dL R i) = x at *
  generalize (crossSection R (r R i 2) (zetaI R e) (Real.sin phi)).1
      / (1 / 4 * Real.pi * R.d * R.d) = y at *
  have h4 := mul_nonneg (sub_nonneg.mpr h1) (sq_nonneg (Real.cos phi))
  have h5 := mul_nonneg (sub_nonneg.mpr h3) (sq_nonneg (Real.sin phi))
  nlinarith

/-- C37 fails for thin nearly vertical rods: the area of the cut section is set to half a square
metre (source/Rod.cpp:1011), so the submerged fraction of the node at the waterline has no bound. -/
theorem C37_fraction_false (bound : ℝ) : ∃ (R : Rod) (a : ℝ × ℝ), Proper R ∧ angles R = some a ∧
    ∃ i ≤ R.N, bound < vof R still a.1 i := by
  -- inclination with sine s = 3/3001 or so: use (s, c) = (2t/(1+t²), (1-t²)/(1+t²)), t = 1/4000
  set t : ℝ := 1 / 4000 with ht
  set s : ℝ := 2 * t / (1 + t ^ 2) with hs
  set c : ℝ := (1 - t ^ 2) / (1 + t ^ 2) with hc
  have hs0 : 0 < s := by rw [hs, ht]; norm_num
  have hs1 : s < 1 / 1000 := by rw [hs, ht]; norm_num
  have hsc : s * s + c * c = 1 := by rw [hs, hc, ht]; norm_num
  have hpi := Real.pi_pos
  set K : ℝ := |bound| + 1 with hK
  have hKp : 0 < K := by positivity
  -- diameter with s² / 2 / (π d² / 4) = 2 s² / (π d²) > K
  set d : ℝ := Real.sqrt (s * s / (Real.pi * K)) with hd
  have hdp : 0 < d := Real.sqrt_pos.mpr (by positivity)
  have hdd : d * d = s * s / (Real.pi * K) := Real.mul_self_sqrt (by positivity)
  let R : Rod := { spar 0 with d := d, q := ![s, 0, c], r0 := 0 }
  have hR : Proper R := ⟨by simp [R, spar], hdp, by norm_num [R, spar],
    by simpa [R, dotProduct, Fin.sum_univ_three] using hsc⟩
  obtain ⟨a, ha⟩ := angles_isSome hR
  refine ⟨R, a, hR, ha, 0, Nat.zero_le _, ?_⟩
  have hsin : Real.sin a.1 = s := by
    rw [(angles_some hR ha).2]
    have : R.q 0 * R.q 0 + R.q 1 * R.q 1 = s * s := by simp [R]
    rw [this, Real.sqrt_mul_self hs0.le]
  have hz : r R 0 2 = 0 := by rw [r_zero]; rfl
  have hze : zetaI R still = 0 := rfl
  have hRd : R.d = d := rfl
  have hcs : (crossSection R (r R 0 2) (zetaI R still) (Real.sin a.1)).1 = 1 / 2 := by
    unfold crossSection z1lo z1hi
    rw [hz, hze, hsin, hRd, abs_of_pos hs0]
    have hp : 0 < 1 / 2 * d * s := by positivity
    rw [if_neg (by simp; linarith), if_neg (by simp; linarith), if_pos hs1]
  have hv0 := (vof0_range (h := h0 R still) (Lsum_nonneg hR.hL.le 0)
    (dL_nonneg (R := R) hR.hL.le 0)).1
  unfold vof
  rw [hcs, hsin, hRd]
  have h1 : 0 ≤ vof0 (h0 R still) (Lsum R 0) (dL R 0) * Real.cos a.1 * Real.cos a.1 := by
    rw [mul_assoc]; exact mul_nonneg hv0 (mul_self_nonneg _)
  have h2 : (1 / 2 : ℝ) / (1 / 4 * Real.pi * d * d) * s * s = 2 * K := by
    rw [show 1 / 4 * Real.pi * d * d = 1 / 4 * Real.pi * (d * d) by ring, hdd]
    field_simp
    norm_num
  rw [h2]
  have := le_abs_self bound
  linarith

/-- The `Sub` output channel is the mean over the nodes, end nodes counted as much as the others:
for a vertical rod of two segments with a quarter of its length under water it says a third. -/
theorem C37_sub_channel_false : ∃ (R : Rod) (a : ℝ × ℝ), Floating R still ∧
    angles R = some a ∧ draft R = R.UnstrLen / 4 ∧ outSub R still a.1 = 1 / 3 := by
  have hf := buoy_floating (z := -5 / 2) (by norm_num) (by norm_num)
  obtain ⟨a, ha⟩ := angles_isSome hf.proper
  refine ⟨_, a, hf, ha, by simp [draft, buoy, spar]; norm_num, ?_⟩
  obtain ⟨hc, hs⟩ := floating_angles hf ha
  have hz : zetaI (buoy (-5 / 2)) still = 0 := rfl
  have hr0 : r (buoy (-5 / 2)) 0 2 = -5 / 2 := by rw [r_zero]; rfl
  have hrN : r (buoy (-5 / 2)) (buoy (-5 / 2)).N 2 = 15 / 2 := by
    rw [r_end hf.proper, hr0]; simp [buoy, spar]; norm_num
  have hh : h0 (buoy (-5 / 2)) still = 5 / 2 := by
    unfold h0
    simp only
    rw [hz, hr0, hrN, if_neg (by norm_num), if_pos (by norm_num)]
    simp [buoy, spar]; norm_num
  have hv : ∀ i, vof (buoy (-5 / 2)) still a.1 i
      = vof0 (5 / 2) (Lsum (buoy (-5 / 2)) i) (dL (buoy (-5 / 2)) i) := by
    intro i
    unfold vof
    rw [hs, hc, hh]; ring
  have hl : l (buoy (-5 / 2)) = 5 := by simp [l, buoy, spar]; norm_num
  have hN : (buoy (-5 / 2)).N = 2 := rfl
  have d0 : dL (buoy (-5 / 2)) 0 = 5 / 2 := by simp [dL, hl]; norm_num
  have d1 : dL (buoy (-5 / 2)) 1 = 5 := by simp [dL, hl, hN]; norm_num
  have d2 : dL (buoy (-5 / 2)) 2 = 5 / 2 := by simp [dL, hl, hN]; norm_num
  have l0 : Lsum (buoy (-5 / 2)) 0 = 0 := rfl
  have l1 : Lsum (buoy (-5 / 2)) 1 = 5 / 2 := by
    change Lsum _ 0 + dL _ 0 = _; rw [l0, d0]; norm_num
  have l2 : Lsum (buoy (-5 / 2)) 2 = 15 / 2 := by
    change Lsum _ 1 + dL _ 1 = _; rw [l1, d1]; norm_num
  unfold outSub
  simp only [hv, hN, sum_range_succ, range_zero, sum_empty, l0, l1, l2, d0, d1, d2]
  norm_num [vof0]

/-- A rod across the surface -/
example : Proper (spar (-4)) ∧ (spar (-4)).r0 2 < still.zeta (spar (-4)).N ∧
    axisPoint (spar (-4)) (spar (-4)).UnstrLen 2 ≠ still.zeta (spar (-4)).N := by
  refine ⟨spar_proper _, ?_, ?_⟩
  · simp [spar, still]
  · simp [axis_z, spar, still]; norm_num

/-- The same rod the other way around: end A up -/
noncomputable def upsideDown : Rod := { spar 4 with q := ![-3 / 5, 0, -4 / 5] }

example : Proper upsideDown ∧ still.zeta upsideDown.N < upsideDown.r0 2 ∧
    axisPoint upsideDown upsideDown.UnstrLen 2 < still.zeta upsideDown.N := by
  refine ⟨⟨by simp [upsideDown, spar], by norm_num [upsideDown, spar],
    by norm_num [upsideDown, spar],
    by simp [upsideDown, dotProduct, Fin.sum_univ_three]; norm_num⟩, ?_, ?_⟩
  · simp [upsideDown, spar, still]
  · simp [axis_z, upsideDown, spar, still]; norm_num

/-- A rod hanging from the surface -/
example : Proper (spar (-8)) ∧ (spar (-8)).r0 2 < still.zeta (spar (-8)).N ∧
    axisPoint (spar (-8)) (spar (-8)).UnstrLen 2 = still.zeta (spar (-8)).N := by
  refine ⟨spar_proper _, ?_, ?_⟩
  · simp [spar, still]
  · simp [axis_z, spar, still]; norm_num

end MD.Rods
