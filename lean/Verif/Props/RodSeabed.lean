import Verif.Props.Rod

/-!
# C87: rods on the seabed
-/

set_option linter.unusedSimpArgs false
set_option linter.unusedVariables false

namespace MD.Rods

open Matrix MD.Mat MD.Rot MD.Mooring Finset

variable {R : Rod} {e : Env}

/-- **C87** (load): a rod with its axis under a flat bottom gets the pressure `kBot` times the
penetration less `cBot` times the rising speed, both of its middle, on the area `d L`, upwards; the
number of segments has no effect. -/
theorem C87_pressure (hR : Proper R) (D : ℝ) (hD : ∀ x y, e.waterDepth x y = D)
    (hin : ∀ s, 0 ≤ s → s ≤ R.UnstrLen → axisPoint R s 2 < D) :
    ∑ i ∈ range (R.N + 1), B R e i =
      ![0, 0, ((D - axisPoint R (R.UnstrLen / 2) 2) * e.kb
        - (R.vA + R.w ⨯₃ ((R.UnstrLen / 2) • R.q)) 2 * e.cb) * (R.d * R.UnstrLen)] := by
  have hN := hR.hN
  have h1 : ∀ i ∈ range (R.N + 1), B R e i =
      dL R i • ![0, 0, ((D - R.r0 2) * e.kb - R.vA 2 * e.cb) * R.d]
      + (dL R i * ((i : ℝ) / R.N * R.UnstrLen)) •
          ![0, 0, (-(R.q 2 * e.kb) - (R.w ⨯₃ R.q) 2 * e.cb) * R.d] := by
    intro i hi
    have hi' : i ≤ R.N := by rw [mem_range] at hi; omega
    obtain ⟨h0, hl⟩ := node_dist hR hi'
    have hr : r R i = axisPoint R ((i : ℝ) / R.N * R.UnstrLen) := r_eq hN i
    have hz : r R i 2 < D := by rw [hr]; exact hin _ h0 hl
    unfold B
    rw [if_neg hN]
    dsimp only
    rw [hD, if_pos hz, rd_eq hN, r_rel hN, r_eq hN, map_smul]
    funext k
    fin_cases k
    · simp
    · simp
    · simp; ring
  rw [sum_congr rfl h1, sum_add_distrib, ← sum_smul, ← sum_smul, sum_dL hN, sum_dL_x hN]
  unfold axisPoint
  rw [map_smul]
  funext k
  fin_cases k
  · simp
  · simp
  · simp; ring

/-- **C87** (lever): the load of a rod at rest that lies level on a flat bottom acts at its
middle. -/
theorem C87_centre (hR : Proper R) (D : ℝ) (hD : ∀ x y, e.waterDepth x y = D)
    (hin : R.r0 2 < D) (hlevel : R.q 2 = 0) (hv : R.vA = 0) (hw : R.w = 0) :
    ∑ i ∈ range (R.N + 1), (r R i - r R 0) ⨯₃ B R e i =
      ((R.UnstrLen / 2) • R.q) ⨯₃ ![0, 0, (D - R.r0 2) * e.kb * (R.d * R.UnstrLen)] := by
  have hN := hR.hN
  have h1 : ∀ i ∈ range (R.N + 1), (r R i - r R 0) ⨯₃ B R e i =
      (dL R i * ((i : ℝ) / R.N * R.UnstrLen)) •
        (R.q ⨯₃ ![0, 0, (D - R.r0 2) * e.kb * R.d]) := by
    intro i hi
    have hz : r R i 2 = R.r0 2 := by rw [r_eq hN]; simp [hlevel]
    have hB : B R e i = dL R i • ![0, 0, (D - R.r0 2) * e.kb * R.d] := by
      unfold B
      rw [if_neg hN]
      dsimp only
      rw [hD, hz, if_pos hin, rd_eq hN, hw, hv]
      funext k
      fin_cases k
      · simp
      · simp
      · simp; ring
    rw [hB, r_rel hN, map_smul, LinearMap.map_smul crossProduct, LinearMap.smul_apply, smul_smul]
  rw [sum_congr rfl h1, ← sum_smul, sum_dL_x hN, LinearMap.map_smul crossProduct,
    LinearMap.smul_apply]
  have : (![0, 0, (D - R.r0 2) * e.kb * (R.d * R.UnstrLen)] : V) =
      R.UnstrLen • ![0, 0, (D - R.r0 2) * e.kb * R.d] := by
    funext k
    fin_cases k
    · simp
    · simp
    · simp; ring
  rw [this, map_smul, smul_smul]
  congr 1
  ring

/-- **C87** (off the bottom): no load on a rod whose axis is above the bottom. -/
theorem C87_clear (hR : Proper R)
    (hout : ∀ s, 0 ≤ s → s ≤ R.UnstrLen →
      e.waterDepth (axisPoint R s 0) (axisPoint R s 1) ≤ axisPoint R s 2) (i : ℕ) (hi : i ≤ R.N) :
    B R e i = 0 := by
  have hN := hR.hN
  obtain ⟨h0, hl⟩ := node_dist hR hi
  have hr : r R i = axisPoint R ((i : ℝ) / R.N * R.UnstrLen) := r_eq hN i
  unfold B
  rw [if_neg hN]
  dsimp only
  rw [hr, if_neg (not_lt.2 (hout _ h0 hl))]

/-- **C87** (the bottom only pushes): at every node, over any bathymetry, the load is vertical, and
upwards while the rod rises no faster than `kBot / cBot` times the penetration. -/
theorem C87_push_partial (hR : Proper R) (i : ℕ)
    (hv : rd R i 2 * e.cb ≤ (e.waterDepth (r R i 0) (r R i 1) - r R i 2) * e.kb) :
    B R e i 0 = 0 ∧ B R e i 1 = 0 ∧ 0 ≤ B R e i 2 := by
  have hN := hR.hN
  unfold B
  rw [if_neg hN]
  split_ifs with hz
  · refine ⟨rfl, rfl, ?_⟩
    have h1 := hR.hd.le
    have h2 := (dL_pos hN hR.hL i).le
    change 0 ≤ (_ * e.kb - _) * R.d * dL R i
    exact mul_nonneg (mul_nonneg (by linarith) h1) h2
  · exact ⟨rfl, rfl, le_rfl⟩

/-- **C87** is false: a rod that rises faster is held by the bottom. -/
theorem C87_suction_false (hR : Proper R) (i : ℕ)
    (hz : r R i 2 < e.waterDepth (r R i 0) (r R i 1))
    (hv : (e.waterDepth (r R i 0) (r R i 1) - r R i 2) * e.kb < rd R i 2 * e.cb) :
    B R e i 2 < 0 := by
  have hN := hR.hN
  unfold B
  rw [if_neg hN]
  rw [if_pos hz]
  have h1 := hR.hd
  have h2 := dL_pos hN hR.hL i
  change (_ * e.kb - _) * R.d * dL R i < 0
  have : ((e.waterDepth (r R i 0) (r R i 1) - r R i 2) * e.kb - rd R i 2 * e.cb) * R.d < 0 :=
    mul_neg_of_neg_of_pos (by linarith) h1
  exact mul_neg_of_neg_of_pos this h2

/-- **C87** (friction): the friction parameters have no effect on rods. -/
theorem C87_friction_false (mu damp scale : ℝ) (i : ℕ) :
    B R { e with frictionCoefficient := mu, fricDamp := damp, statDynFricScale := scale } i =
      B R e i ∧ B R e i 0 = 0 ∧ B R e i 1 = 0 := by
  refine ⟨rfl, ?_, ?_⟩ <;> unfold B <;> dsimp only <;> split_ifs <;> rfl

/-- **C87**: rods of length zero get no load, at any depth. -/
theorem C87_zero_length_false (hN : R.N = 0) (i : ℕ) : B R e i = 0 := by
  unfold B
  rw [if_pos hN]

/-- A rod of 2 m of diameter level at a given height, moving up -/
noncomputable def sleeper (z v : ℝ) : Rod :=
  { spar z with q := ![1, 0, 0], vA := ![0, 0, v] }

/-- A flat bottom 50 m deep -/
noncomputable def flat : Env :=
  { still with kb := 1000, cb := 100, waterDepth := fun _ _ => -50 }

theorem sleeper_proper (z v : ℝ) : Proper (sleeper z v) where
  hN := by simp [sleeper, spar]
  hd := by norm_num [sleeper, spar]
  hL := by norm_num [sleeper, spar]
  hq := by simp [sleeper, spar, dotProduct, Fin.sum_univ_three]

/-- **C87** is false of the surface of the rod: half a metre above the bottom with the axis, a rod
of 1 m of radius has its lower half metre in the ground, but no load. -/
theorem C87_surface_false : ∃ (R : Rod) (e : Env), Proper R ∧ (∀ x y, e.waterDepth x y = -50) ∧
    0 < e.kb ∧ (∀ i, r R i 2 - R.d / 2 < -50) ∧ ∀ i, B R e i = 0 := by
  refine ⟨sleeper (-(99 / 2)) 0, flat, sleeper_proper _ _, fun _ _ => rfl, ?_, ?_, ?_⟩
  · norm_num [flat]
  · intro i
    rw [r_eq (sleeper_proper _ _).hN]
    simp [sleeper, spar]; norm_num
  · intro i
    have hz : r (sleeper (-(99 / 2)) 0) i 2 = -(99 / 2) := by
      rw [r_eq (sleeper_proper _ _).hN]
      simp [sleeper, spar]
    unfold B
    rw [if_neg (sleeper_proper _ _).hN]
    dsimp only
    rw [hz, if_neg]
    norm_num [flat]

/-- Non-vacuity: a rod 1 m in the ground (`C87_pressure`, `C87_centre`). -/
example : Proper (sleeper (-51) 0) ∧ (∀ x y, flat.waterDepth x y = -50) ∧
    (∀ s, 0 ≤ s → s ≤ (sleeper (-51) 0).UnstrLen → axisPoint (sleeper (-51) 0) s 2 < -50) ∧
    (sleeper (-51) 0).r0 2 < -50 ∧ (sleeper (-51) 0).q 2 = 0 ∧ (sleeper (-51) 0).vA = 0 ∧
    (sleeper (-51) 0).w = 0 := by
  refine ⟨sleeper_proper _ _, fun _ _ => rfl, ?_, ?_, ?_, ?_, rfl⟩
  · intro s _ _; simp [axisPoint, sleeper, spar]; norm_num
  · simp [sleeper, spar]; norm_num
  · simp [sleeper]
  · funext k; fin_cases k <;> simp [sleeper]

/-- Non-vacuity: the same rod rising with 5 m/s (`C87_push_partial`) and 20 m/s
(`C87_suction_false`). -/
example : rd (sleeper (-51) 5) 1 2 * flat.cb ≤
      (flat.waterDepth (r (sleeper (-51) 5) 1 0) (r (sleeper (-51) 5) 1 1)
        - r (sleeper (-51) 5) 1 2) * flat.kb ∧
    r (sleeper (-51) 20) 1 2 <
      flat.waterDepth (r (sleeper (-51) 20) 1 0) (r (sleeper (-51) 20) 1 1) ∧
    (flat.waterDepth (r (sleeper (-51) 20) 1 0) (r (sleeper (-51) 20) 1 1)
      - r (sleeper (-51) 20) 1 2) * flat.kb < rd (sleeper (-51) 20) 1 2 * flat.cb := by
  have hr : ∀ v, r (sleeper (-51) v) 1 2 = -51 := by
    intro v
    rw [r_eq (sleeper_proper _ _).hN]
    simp [sleeper, spar]
  have hrd : ∀ v, rd (sleeper (-51) v) 1 2 = v := by
    intro v
    rw [rd_eq (sleeper_proper _ _).hN]
    simp [sleeper, spar]
  refine ⟨?_, ?_, ?_⟩
  · rw [hr, hrd]; norm_num [flat]
  · rw [hr]; norm_num [flat]
  · rw [hr, hrd]; norm_num [flat]

end MD.Rods
