import Verif.Props.LineTension

/-!
# Properties C32, C33, C34, C65: dissipation, seabed contact and submergence of a line
-/

set_option linter.unusedSimpArgs false
set_option linter.unusedVariables false

namespace MD.Mooring

open Matrix MD.Mat Finset

/-! ## C34 -/

/-- Horizontal distance -/
noncomputable def hor (a : V) : ℝ := Real.sqrt (a 0 ^ 2 + a 1 ^ 2)

theorem hor_nonneg (a : V) : 0 ≤ hor a := Real.sqrt_nonneg _

theorem hor_neg (a : V) : hor (-a) = hor a := by simp [hor]

theorem norm_neg (a : V) : norm (-a) = norm a := by simp [norm]

/-- Vertical component of the vector from the axis to the highest point of a cross section -/
theorem normVec_z (a : V) (ρ : ℝ) :
    (scalevector (normalize (a ⨯₃ (![0, 0, 1] ⨯₃ a))) ρ) 2 = ρ * hor a / norm a := by
  set w := a ⨯₃ (![0, 0, 1] ⨯₃ a) with hw
  have hz : w 2 = a 0 ^ 2 + a 1 ^ 2 := by
    rw [hw]; simp [cross_apply]; ring
  have hww : w ⬝ᵥ w = (a 0 ^ 2 + a 1 ^ 2) * (a ⬝ᵥ a) := by
    rw [hw]; simp [cross_apply, dotProduct, Fin.sum_univ_three]; ring
  have hh : hor a ^ 2 = a 0 ^ 2 + a 1 ^ 2 := Real.sq_sqrt (by positivity)
  have hn : norm w = hor a * norm a := by
    apply norm_eq _ _ (mul_nonneg (hor_nonneg _) (norm_nonneg _))
    rw [hww, ← hh, ← norm_sq]
    ring
  unfold normalize
  by_cases h : 0 < w ⬝ᵥ w
  · rw [if_pos h]
    have hp : 0 < norm w := Real.sqrt_pos.2 h
    have hu : ((1 / norm w) • w) ⬝ᵥ ((1 / norm w) • w) = 1 := by
      rw [dotProduct_smul, smul_dotProduct, ← norm_sq]
      simp only [smul_eq_mul]
      field_simp
    unfold scalevector
    rw [hu, if_neg (by rw [equalRealNos_zero, abs_one]; exact not_le.2 tol_lt_one), Real.sqrt_one]
    simp only [Pi.smul_apply, smul_eq_mul]
    rw [hz, ← hh, hn]
    rw [hn] at hp
    have h1 : 0 < hor a := by
      rcases (hor_nonneg a).lt_or_eq with h | h
      · exact h
      · rw [← h, zero_mul] at hp; exact absurd hp (lt_irrefl _)
    have h2 : 0 < norm a := by
      rcases (norm_nonneg a).lt_or_eq with h | h
      · exact h
      · rw [← h, mul_zero] at hp; exact absurd hp (lt_irrefl _)
    field_simp
  · rw [if_neg h]
    have h0 : w ⬝ᵥ w = 0 := le_antisymm (not_lt.1 h) (dot_self_nonneg w)
    have hz0 : hor a * norm a = 0 := by
      rw [← hn, norm, h0, Real.sqrt_zero]
    have hw2 : w 2 = 0 := by
      rcases mul_eq_zero.1 hz0 with h | h
      · rw [hz, ← hh, h]; ring
      · have : a ⬝ᵥ a = 0 := by rw [← norm_sq, h]; ring
        simp only [dotProduct, Fin.sum_univ_three] at this
        have h0 := mul_self_nonneg (a 0); have h1 := mul_self_nonneg (a 1)
        have h2 := mul_self_nonneg (a 2)
        rw [hz]; nlinarith
    unfold scalevector
    rw [h0, if_pos (by rw [equalRealNos_zero, abs_zero]; exact tol_pos.le), hw2]
    rcases mul_eq_zero.1 hz0 with h | h
    · rw [h]; simp
    · rw [h]; simp

/-- Half of the vertical extent of the cross section of a segment from `a` to `b` -/
noncomputable def rise (d : ℝ) (a b : V) : ℝ := d / 2 * hor (b - a) / norm (b - a)

theorem rise_nonneg (d : ℝ) (hd : 0 ≤ d) (a b : V) : 0 ≤ rise d a b :=
  div_nonneg (mul_nonneg (by linarith) (hor_nonneg _)) (norm_nonneg _)

theorem rise_comm (d : ℝ) (a b : V) : rise d b a = rise d a b := by
  unfold rise; rw [← neg_sub, hor_neg, norm_neg]

theorem calcSubSeg_inner (d : ℝ) (a b : V) (h : ℝ) (h1 : ¬ (a 2 - h ≤ 0 ∧ b 2 - h < 0))
    (h2 : ¬ (0 < a 2 - h ∧ 0 < b 2 - h)) (h3 : a 2 - h ≠ -(b 2 - h)) :
    calcSubSeg d a b h = if a 2 - h < 0 then
        |a 2 - h - rise d a b| / (|a 2 - h - rise d a b| + (b 2 - h + rise d a b))
      else |b 2 - h - rise d a b| / (|b 2 - h - rise d a b| + (a 2 - h + rise d a b)) := by
  unfold calcSubSeg
  dsimp only
  rw [if_neg h1, if_neg h2, if_neg h3]
  by_cases hs : a 2 - h < 0
  · rw [if_pos hs, if_pos hs, if_pos hs]
    have e : b - ![0, 0, h] - (a - ![0, 0, h]) = b - a := by abel
    rw [e]
    have hz := normVec_z (b - a) (d / 2)
    simp only [Pi.sub_apply, Pi.add_apply, hz]
    rfl
  · rw [if_neg hs, if_neg hs, if_neg hs]
    have e : a - ![0, 0, h] - (b - ![0, 0, h]) = a - b := by abel
    rw [e]
    have hz := normVec_z (a - b) (d / 2)
    simp only [Pi.sub_apply, Pi.add_apply, hz]
    have := rise_comm d a b
    unfold rise at this ⊢
    rw [this]
    rfl

/-- C34: for all end positions, the submerged part is a fraction. -/
theorem C34_in_unit_interval (d : ℝ) (hd : 0 ≤ d) (a b : V) (h : ℝ) :
    0 ≤ calcSubSeg d a b h ∧ calcSubSeg d a b h ≤ 1 := by
  by_cases h1 : a 2 - h ≤ 0 ∧ b 2 - h < 0
  · unfold calcSubSeg; dsimp only; rw [if_pos h1]; norm_num
  by_cases h2 : 0 < a 2 - h ∧ 0 < b 2 - h
  · unfold calcSubSeg; dsimp only; rw [if_neg h1, if_pos h2]; norm_num
  by_cases h3 : a 2 - h = -(b 2 - h)
  · unfold calcSubSeg; dsimp only; rw [if_neg h1, if_neg h2, if_pos h3]; norm_num
  rw [calcSubSeg_inner d a b h h1 h2 h3]
  have hr := rise_nonneg d hd a b
  have key : ∀ x y : ℝ, 0 ≤ y → 0 ≤ |x| / (|x| + y) ∧ |x| / (|x| + y) ≤ 1 := by
    intro x y hy
    have hx := abs_nonneg x
    refine ⟨div_nonneg hx (by linarith), div_le_one_of_le₀ (by linarith) (by linarith)⟩
  split
  · rename_i hs
    apply key
    have : 0 ≤ b 2 - h := by
      by_contra hc
      exact h1 ⟨hs.le, not_le.1 hc⟩
    linarith
  · rename_i hs
    apply key
    have := not_lt.1 hs
    linarith

/-- C34: a segment with both ends below the surface is submerged. -/
theorem C34_below (d : ℝ) (a b : V) (h : ℝ) (ha : a 2 < h) (hb : b 2 < h) :
    calcSubSeg d a b h = 1 := by
  unfold calcSubSeg; dsimp only; rw [if_pos ⟨by linarith, by linarith⟩]

/-- C34: a segment with both ends above the surface is dry. -/
theorem C34_above (d : ℝ) (a b : V) (h : ℝ) (ha : h < a 2) (hb : h < b 2) :
    calcSubSeg d a b h = 0 := by
  unfold calcSubSeg; dsimp only
  rw [if_neg (fun hh => by linarith [hh.1]), if_pos ⟨by linarith, by linarith⟩]

/-- C34: a segment across the surface, the end `a` below and `b` above: the submerged part of the
line from the lowest point of the lower section to the highest point of the upper section. -/
theorem C34_across (d : ℝ) (hd : 0 ≤ d) (a b : V) (h : ℝ) (ha : a 2 < h) (hb : h < b 2) :
    calcSubSeg d a b h = (h - a 2 + rise d a b) / (b 2 - a 2 + 2 * rise d a b) := by
  have hr := rise_nonneg d hd a b
  by_cases h3 : a 2 - h = -(b 2 - h)
  · unfold calcSubSeg
    dsimp only
    rw [if_neg (fun hh => by linarith [hh.2]), if_neg (fun hh => by linarith [hh.1]), if_pos h3]
    rw [eq_div_iff (by linarith)]
    linarith
  · rw [calcSubSeg_inner d a b h (fun hh => by linarith [hh.2]) (fun hh => by linarith [hh.1]) h3,
      if_pos (by linarith), abs_of_nonpos (by linarith)]
    congr 1 <;> ring

/-- C34, thin line: the submerged fraction is that of the axis, the parameter of the point of the
axis at the surface. -/
theorem C34_across_axis (a b : V) (h : ℝ) (ha : a 2 < h) (hb : h < b 2) :
    (a + calcSubSeg 0 a b h • (b - a)) 2 = h := by
  rw [C34_across 0 (le_refl _) a b h ha hb]
  have : rise 0 a b = 0 := by unfold rise; simp
  rw [this]
  simp only [Pi.add_apply, Pi.smul_apply, Pi.sub_apply, smul_eq_mul]
  have : b 2 - a 2 ≠ 0 := by linarith
  rw [add_zero, mul_zero, add_zero, div_mul_cancel₀ _ this]
  ring

/-- C34, symmetry in the ends, when none is exactly at the surface. Missing: an end exactly at
the surface, for which it is false (`C34_end_at_surface_false`). -/
theorem C34_symmetric_partial (d : ℝ) (hd : 0 ≤ d) (a b : V) (h : ℝ) (ha : a 2 ≠ h) (hb : b 2 ≠ h) :
    calcSubSeg d a b h = calcSubSeg d b a h := by
  rcases lt_or_gt_of_ne ha with ha | ha <;> rcases lt_or_gt_of_ne hb with hb | hb
  · rw [C34_below d a b h ha hb, C34_below d b a h hb ha]
  · have h1 := C34_across d hd a b h ha hb
    by_cases h3 : b 2 - h = -(a 2 - h)
    · rw [h1]
      unfold calcSubSeg
      dsimp only
      rw [if_neg (fun hh => by linarith [hh.2]), if_neg (fun hh => by linarith [hh.2]), if_pos h3]
      have hr := rise_nonneg d hd a b
      rw [div_eq_iff (by linarith)]
      linarith
    · rw [h1, calcSubSeg_inner d b a h (fun hh => by linarith [hh.1]) (fun hh => by linarith [hh.2])
        h3, if_neg (by linarith), rise_comm d a b]
      have hr := rise_nonneg d hd a b
      rw [abs_of_nonpos (by linarith)]
      congr 1 <;> ring
  · have h1 := C34_across d hd b a h hb ha
    by_cases h3 : a 2 - h = -(b 2 - h)
    · rw [h1]
      unfold calcSubSeg
      dsimp only
      rw [if_neg (fun hh => by linarith [hh.1]), if_neg (fun hh => by linarith [hh.2]), if_pos h3]
      have hr := rise_nonneg d hd b a
      rw [eq_comm, div_eq_iff (by linarith)]
      linarith
    · rw [h1, calcSubSeg_inner d a b h (fun hh => by linarith [hh.1]) (fun hh => by linarith [hh.2])
        h3, if_neg (by linarith), rise_comm d a b]
      have hr := rise_nonneg d hd a b
      rw [abs_of_nonpos (by linarith)]
      congr 1 <;> ring
  · rw [C34_above d a b h ha hb, C34_above d b a h hb ha]

example : (![0, 0, -1] : V) 2 < 0 ∧ 0 < (![1, 0, 2] : V) 2 := by simp

/-- C34 fails with an end exactly at the surface: a vertical segment out of the water whose first
end touches the surface is taken as completely submerged, as dry if the ends are swapped. -/
theorem C34_end_at_surface_false (d : ℝ) : calcSubSeg d ![0, 0, 0] ![0, 0, 1] 0 = 1 ∧
    calcSubSeg d ![0, 0, 1] ![0, 0, 0] 0 = 0 := by
  have hr : rise d ![0, 0, 0] ![0, 0, 1] = 0 := by simp [rise, hor]
  have hr' : rise d ![0, 0, 1] ![0, 0, 0] = 0 := by rw [rise_comm, hr]
  constructor
  · rw [calcSubSeg_inner _ _ _ _ (by simp) (by simp) (by simp), hr]
    simp
  · rw [calcSubSeg_inner _ _ _ _ (by simp) (by simp) (by simp), hr']
    simp

/-- C34 (waves): a segment below the lower of the surface elevations at its ends is submerged, one
above the higher is dry. -/
theorem C34_waves (L : Line) (e : Env) (i : ℕ) :
    (L.r i 2 < min (e.zeta i) (e.zeta (i + 1)) → L.r (i + 1) 2 < min (e.zeta i) (e.zeta (i + 1)) →
      F L e i = 1) ∧
    (max (e.zeta i) (e.zeta (i + 1)) < L.r i 2 → max (e.zeta i) (e.zeta (i + 1)) < L.r (i + 1) 2 →
      F L e i = 0) := by
  have h1 := min_le_left (e.zeta i) (e.zeta (i + 1))
  have h2 := min_le_right (e.zeta i) (e.zeta (i + 1))
  have h3 := le_max_left (e.zeta i) (e.zeta (i + 1))
  have h4 := le_max_right (e.zeta i) (e.zeta (i + 1))
  exact ⟨fun ha hb => C34_below _ _ _ _ (by linarith) (by linarith),
    fun ha hb => C34_above _ _ _ _ (by linarith) (by linarith)⟩

/-- C34 (waves): a thin segment across the surface is wet up to the mean of the elevations at its
ends. -/
theorem C34_waves_across (L : Line) (e : Env) (i : ℕ) (hd : L.d = 0)
    (ha : L.r i 2 < (e.zeta i + e.zeta (i + 1)) / 2)
    (hb : (e.zeta i + e.zeta (i + 1)) / 2 < L.r (i + 1) 2) :
    (L.r i + F L e i • (L.r (i + 1) - L.r i)) 2 = (e.zeta i + e.zeta (i + 1)) / 2 := by
  have h : 1 / 2 * (e.zeta i + e.zeta (i + 1)) = (e.zeta i + e.zeta (i + 1)) / 2 := by ring
  unfold F
  rw [hd, h]
  exact C34_across_axis _ _ _ ha hb

/-- C34 fails on the slope of a wave: a segment whose ends are both below the surface where they
are is not taken as submerged if the upper one is above the mean of the elevations. -/
theorem C34_slope_false : ∃ (L : Line) (e : Env), L.r 0 2 < e.zeta 0 ∧ L.r 1 2 < e.zeta 1 ∧
    F L e 0 < 1 := by
  refine ⟨{ elbow with d := 0, r := fun i => ![(i : ℝ), 0, 5 / 2 * i] },
    { vacuum with zeta := fun i => 1 + 2 * (i : ℝ) }, by simp, by simp; norm_num, ?_⟩
  have h := C34_waves_across { elbow with d := 0, r := fun i => ![(i : ℝ), 0, 5 / 2 * i] }
    { vacuum with zeta := fun i => 1 + 2 * (i : ℝ) } 0 rfl (by simp; norm_num) (by simp; norm_num)
  simp at h
  linarith

/-- Non-vacuity of `C34_waves`: under a crest of 5 m, a segment above the still water level. -/
example : F { elbow with r := fun i => ![(i : ℝ), 0, 1] } { vacuum with zeta := fun _ => 5 } 0 = 1 :=
  (C34_waves _ _ 0).1 (by simp) (by simp)

/-! ## C32 -/

theorem unitvector_le_one (a b : V) : (unitvector a b).1 ⬝ᵥ (unitvector a b).1 ≤ 1 := by
  by_cases h : 100 * eps / 2 < norm (b - a)
  · exact (unitvector_unit a b h).1.le
  · unfold unitvector
    dsimp only
    have hle := not_lt.1 h
    rw [if_pos (by rw [equalRealNos_zero, abs_of_nonneg (norm_nonneg _)]; exact hle), ← norm_sq]
    have := norm_nonneg (b - a)
    have := tol_lt_one
    nlinarith

/-- The node tangents are at most unit vectors, if those set by the attached rods are. -/
theorem q_le_one (L : Line) (hA : L.qA ⬝ᵥ L.qA ≤ 1) (hB : L.qB ⬝ᵥ L.qB ≤ 1) (i : ℕ) :
    q L i ⬝ᵥ q L i ≤ 1 := by
  unfold q
  split
  · split
    · exact unitvector_le_one _ _
    · exact hA
  · split
    · split
      · exact unitvector_le_one _ _
      · exact hB
    · exact unitvector_le_one _ _

theorem cauchy (a b : V) : (a ⬝ᵥ b) ^ 2 ≤ (a ⬝ᵥ a) * (b ⬝ᵥ b) := by
  simp only [dotProduct, Fin.sum_univ_three]
  nlinarith [sq_nonneg (a 0 * b 1 - a 1 * b 0), sq_nonneg (a 1 * b 2 - a 2 * b 1),
    sq_nonneg (a 0 * b 2 - a 2 * b 0)]

theorem adjacent_nonneg (N : ℕ) (f : ℕ → ℝ) (hf : ∀ j, 0 ≤ f j) (i : ℕ) : 0 ≤ adjacent N f i := by
  unfold adjacent
  split
  · exact hf _
  · split
    · exact hf _
    · exact add_nonneg (hf _) (hf _)

/-- C32, drag on a line node: it follows the relative flow, for every velocity and current. -/
theorem C32_line_drag (L : Line) (e : Env) (i : ℕ) (hi : i ≤ L.N) (hd : 0 ≤ L.d) (hl : ∀ j, 0 ≤ L.l j)
    (hr : 0 ≤ e.rho_w) (hn : 0 ≤ L.Cdn) (ht : 0 ≤ L.Cdt)
    (hA : L.qA ⬝ᵥ L.qA ≤ 1) (hB : L.qB ⬝ᵥ L.qB ≤ 1) :
    ∃ D, getNodeDrag L e i = some D ∧ 0 ≤ D ⬝ᵥ (e.U i - L.rd i) := by
  refine ⟨Dp L e i + Dq L e i, ?_, ?_⟩
  · unfold getNodeDrag; rw [if_neg (by omega)]
  · have hq := q_le_one L hA hB i
    have hadj : 0 ≤ adjacent L.N (fun j => F L e j * L.l j) i :=
      adjacent_nonneg _ _ (fun j => mul_nonneg (C34_in_unit_interval _ hd _ _ _).1 (hl j)) i
    have hv : ∀ v : V, v = e.U i - L.rd i → 0 ≤ (v ⬝ᵥ q L i) • q L i ⬝ᵥ v ∧
        0 ≤ (v - (v ⬝ᵥ q L i) • q L i) ⬝ᵥ v := by
      intro v _
      have hc := cauchy v (q L i)
      have hvv := dot_self_nonneg v
      rw [sub_dotProduct, smul_dotProduct, smul_eq_mul, dotProduct_comm (q L i) v]
      constructor
      · exact mul_self_nonneg _
      · nlinarith
    obtain ⟨h1, h2⟩ := hv _ rfl
    rw [add_dotProduct]
    unfold Dp Dq
    rw [smul_dotProduct, smul_dotProduct]
    have hp := Real.pi_pos
    have n1 := norm_nonneg (vp L e i)
    have n2 := norm_nonneg (vq L e i)
    apply add_nonneg
    · exact mul_nonneg (by positivity) h2
    · exact mul_nonneg (by positivity) h1

/-- Power given to the two ends of segment `i` by its damping force `td` (which is applied to the
first node of the segment and subtracted from the second) -/
def dampingPower (L : Line) (td : V) (i : ℕ) : ℝ := td ⬝ᵥ L.rd i + (-td) ⬝ᵥ L.rd (i + 1)

theorem dampingPower_eq (L : Line) (i : ℕ) (k : ℝ) :
    dampingPower L (k • qs L i) i = -(k * ldstr L i) := by
  unfold dampingPower ldstr
  rw [neg_dotProduct, smul_dotProduct, smul_dotProduct, dotProduct_sub, smul_eq_mul, smul_eq_mul]
  ring

/-- C32, constant damping: the axial damping of a segment takes energy. -/
theorem C32_constant_damping (L : Line) (i : ℕ) (hd : L.damp = none) (hc : 0 ≤ L.c) (hA : 0 ≤ L.A)
    (hl : 0 < L.l i) : ∃ td, Td L i = some td ∧ dampingPower L td i ≤ 0 := by
  refine ⟨(L.c * L.A * ldstr L i / L.l i) • qs L i, ?_, ?_⟩
  · unfold Td getNonlinearC; rw [hd]; rfl
  · rw [dampingPower_eq]
    have : L.c * L.A * ldstr L i / L.l i * ldstr L i = L.c * L.A / L.l i * ldstr L i ^ 2 := by ring
    rw [this]
    have : 0 ≤ L.c * L.A / L.l i * ldstr L i ^ 2 := by positivity
    linarith

/-- C32, tabulated damping: the damping takes energy if the segment is stretching, or if the
table covers negative rates, provided that the tabulated stress has the sign of the rate.
Missing: compression with a table of positive rates only (`C32_mirrored_table_false`) and a rate
of zero (`C32_table_at_rest_false`). -/
theorem C32_tabulated_damping_partial (L : Line) (i : ℕ) (f : ℝ → ℝ) (hd : L.damp = some f)
    (hf : ∀ x, 0 ≤ f x * x) (hA : 0 ≤ L.A) (hl : 0 < L.l i)
    (h : 0 < ldstr L i ∨ ldstr L i < 0 ∧ L.dampNeg = true) :
    ∃ td, Td L i = some td ∧ dampingPower L td i ≤ 0 := by
  have hne : ldstr L i ≠ 0 := by rcases h with h | h <;> [exact h.ne'; exact h.1.ne]
  have hXne : ldstr L i / L.l i ≠ 0 := div_ne_zero hne hl.ne'
  have hC : getNonlinearC L (ldstr L i) (L.l i) =
      some (f (ldstr L i / L.l i) / (ldstr L i / L.l i)) := by
    unfold getNonlinearC
    rw [hd]
    dsimp only
    rcases h with h | h
    · have : ¬ ldstr L i / L.l i < 0 := not_lt.2 (div_nonneg h.le hl.le)
      rw [if_neg this, if_neg this]
      simp only [ite_self, mul_one]
      rw [if_neg hXne]
    · rw [h.2]
      simp only [if_true]
      rw [if_neg hXne]
  refine ⟨_, by unfold Td; rw [hC]; rfl, ?_⟩
  rw [dampingPower_eq]
  have h1 := hf (ldstr L i / L.l i)
  have h2 : f (ldstr L i / L.l i) / (ldstr L i / L.l i) * L.A * ldstr L i / L.l i * ldstr L i =
      L.A * L.l i * (f (ldstr L i / L.l i) * (ldstr L i / L.l i)) := by
    generalize f (ldstr L i / L.l i) = y
    field_simp
  rw [h2]
  have := mul_nonneg (mul_nonneg hA hl.le) h1
  linarith

/-- A segment with tabulated damping, its ends approaching: the table gives a stress equal to the
rate, for rates from zero on. -/
noncomputable def dashpot : Line := { slack with damp := some (fun x => x), dampNeg := false }

/-- C32 fails for tables without negative rates: when the segment shortens the damping pulls its
ends together, giving them energy. -/
theorem C32_mirrored_table_false : ∃ (L : Line) (f : ℝ → ℝ) (td : V), L.damp = some f ∧
    (∀ x, 0 ≤ f x * x) ∧ 0 ≤ L.A ∧ (∀ i, 0 < L.l i) ∧ Td L 0 = some td ∧ 0 < dampingPower L td 0 := by
  have hq : qs dashpot 0 = ![1, 0, 0] := congrArg Prod.fst slack_qs0
  have hr : ldstr dashpot 0 = -1 := by
    unfold ldstr
    rw [hq]
    simp [dashpot, slack, elbow, dotProduct, Fin.sum_univ_three]
  have hTd : Td dashpot 0 = some ((1 / 2 : ℝ) • qs dashpot 0) := by
    unfold Td getNonlinearC
    rw [hr]
    have hd : dashpot.damp = some (fun x => x) := rfl
    have hl : dashpot.l 0 = 2 := rfl
    have hn : dashpot.dampNeg = false := rfl
    have hA : dashpot.A = 1 := rfl
    rw [hd, hl, hn, hA]
    norm_num
  refine ⟨dashpot, fun x => x, _, rfl, fun x => mul_self_nonneg x, zero_le_one, fun i => ?_, hTd, ?_⟩
  · change (0 : ℝ) < 2; norm_num
  · rw [dampingPower_eq, hr]; norm_num

/-- With tabulated damping a line with a segment of constant length has no defined net force at
the nodes of that segment (the quotient is not a number): a line at rest stops the simulation. -/
theorem C32_table_at_rest_false (L : Line) (e : Env) (f : ℝ → ℝ) (hN : 1 ≤ L.N)
    (hd : L.damp = some f) (h : ∀ i, L.rd i = 0) : Fnet L e 0 = none := by
  have hr : ldstr L 0 = 0 := by unfold ldstr; rw [h, h]; simp
  have hTd : Td L 0 = none := by
    unfold Td getNonlinearC
    rw [hr, hd]
    simp
  unfold Fnet axial
  rw [if_pos rfl, hTd]
  rfl

/-! ## C33 -/

/-- The node is in contact with the seabed -/
def onSeabed (L : Line) (e : Env) (i : ℕ) : Prop := L.r i 2 < e.waterDepth (L.r i 0) (L.r i 1)

/-- Horizontal speed of a node -/
noncomputable def speed (L : Line) (i : ℕ) : ℝ := hor (L.rd i)

theorem B_contact (L : Line) (e : Env) (i : ℕ) (h : onSeabed L e i) (hs : speed L i ≠ 0) :
    ∃ φ : ℝ, (φ = e.frictionCoefficient * |B L e i 2| ∨
        (φ = speed L i * e.frictionCoefficient * e.fricDamp ∧
          φ ≤ e.statDynFricScale * (e.frictionCoefficient * |B L e i 2|))) ∧
      B L e i 0 = -φ * L.rd i 0 / speed L i ∧ B L e i 1 = -φ * L.rd i 1 / speed L i := by
  have hs' : Real.sqrt (L.rd i 0 * L.rd i 0 + L.rd i 1 * L.rd i 1) = speed L i := by
    unfold speed hor; congr 1; ring
  unfold B
  dsimp only
  rw [if_pos (show L.r i 2 < e.waterDepth (L.r i 0) (L.r i 1) from h), hs', if_neg hs]
  simp only [Matrix.cons_val_zero, Matrix.cons_val_one, Matrix.cons_val]
  refine ⟨_, ?_, rfl, rfl⟩
  split
  · left; ring
  · rename_i hc
    right
    refine ⟨rfl, ?_⟩
    have := not_lt.1 hc
    rw [mul_comm e.frictionCoefficient]
    exact this

theorem B_still (L : Line) (e : Env) (i : ℕ) (hs : speed L i = 0) :
    B L e i 0 = 0 ∧ B L e i 1 = 0 := by
  have hs' : Real.sqrt (L.rd i 0 * L.rd i 0 + L.rd i 1 * L.rd i 1) = speed L i := by
    unfold speed hor; congr 1; ring
  unfold B
  dsimp only
  split
  · rw [hs', if_pos hs]
    simp
  · simp

/-- C33: no contact, no force. -/
theorem C33_no_contact (L : Line) (e : Env) (i : ℕ)
    (h : e.waterDepth (L.r i 0) (L.r i 1) ≤ L.r i 2) : B L e i = 0 := by
  unfold B
  dsimp only
  rw [if_neg (not_lt.2 h)]

/-- C33: the friction vanishes without horizontal motion. -/
theorem C33_vanishes_without_motion (L : Line) (e : Env) (i : ℕ) (h0 : L.rd i 0 = 0)
    (h1 : L.rd i 1 = 0) : B L e i 0 = 0 ∧ B L e i 1 = 0 := by
  apply B_still
  unfold speed hor
  rw [h0, h1]
  simp

/-- C33: the friction opposes the horizontal velocity: it is a non-positive multiple of it. -/
theorem C33_opposes_motion (L : Line) (e : Env) (i : ℕ) (hμ : 0 ≤ e.frictionCoefficient)
    (hf : 0 ≤ e.fricDamp) :
    ∃ k : ℝ, 0 ≤ k ∧ B L e i 0 = -k * L.rd i 0 ∧ B L e i 1 = -k * L.rd i 1 := by
  by_cases hs : speed L i = 0
  · obtain ⟨h0, h1⟩ := B_still L e i hs
    exact ⟨0, le_refl _, by rw [h0]; ring, by rw [h1]; ring⟩
  · by_cases h : onSeabed L e i
    · obtain ⟨φ, hφ, h0, h1⟩ := B_contact L e i h hs
      have hsp : 0 ≤ speed L i := hor_nonneg _
      refine ⟨φ / speed L i, div_nonneg ?_ hsp, by rw [h0]; ring, by rw [h1]; ring⟩
      rcases hφ with hφ | ⟨hφ, -⟩ <;> rw [hφ] <;> positivity
    · rw [C33_no_contact L e i (not_lt.1 h)]
      exact ⟨0, le_refl _, by simp, by simp⟩

/-- C33: the friction is at most the static limit, which is the kinetic one times the ratio given
in the options. -/
theorem C33_bounded_partial (L : Line) (e : Env) (i : ℕ) (hμ : 0 ≤ e.frictionCoefficient)
    (hf : 0 ≤ e.fricDamp) :
    hor (B L e i) ≤ max 1 e.statDynFricScale * (e.frictionCoefficient * |B L e i 2|) := by
  have hF : 0 ≤ e.frictionCoefficient * |B L e i 2| := mul_nonneg hμ (abs_nonneg _)
  have hm : (1 : ℝ) ≤ max 1 e.statDynFricScale := le_max_left _ _
  by_cases hs : speed L i = 0
  · obtain ⟨h0, h1⟩ := B_still L e i hs
    unfold hor
    rw [h0, h1]
    simp
    positivity
  · by_cases h : onSeabed L e i
    · obtain ⟨φ, hφ, h0, h1⟩ := B_contact L e i h hs
      have hsp : 0 < speed L i := lt_of_le_of_ne (hor_nonneg _) (Ne.symm hs)
      have hφ0 : 0 ≤ φ := by
        rcases hφ with hφ | ⟨hφ, -⟩ <;> rw [hφ] <;> positivity
      have hsq : speed L i ^ 2 = L.rd i 0 ^ 2 + L.rd i 1 ^ 2 := Real.sq_sqrt (by positivity)
      have hB : hor (B L e i) = φ := by
        unfold hor
        rw [h0, h1]
        have : (-φ * L.rd i 0 / speed L i) ^ 2 + (-φ * L.rd i 1 / speed L i) ^ 2 = φ ^ 2 := by
          have : (-φ * L.rd i 0 / speed L i) ^ 2 + (-φ * L.rd i 1 / speed L i) ^ 2 =
              φ ^ 2 * (L.rd i 0 ^ 2 + L.rd i 1 ^ 2) / speed L i ^ 2 := by ring
          rw [this, ← hsq]
          field_simp
        rw [this, Real.sqrt_sq hφ0]
      rw [hB]
      rcases hφ with hφ | ⟨-, hφ⟩
      · rw [hφ]; nlinarith
      · refine hφ.trans ?_
        exact mul_le_mul_of_nonneg_right (le_max_right _ _) hF
    · rw [C33_no_contact L e i (not_lt.1 h)]
      simp [hor]

/-- C33: with a static to dynamic ratio of at most one (the default is one) the friction is at
most the kinetic limit. -/
theorem C33_bounded (L : Line) (e : Env) (i : ℕ) (hμ : 0 ≤ e.frictionCoefficient)
    (hf : 0 ≤ e.fricDamp) (hr : e.statDynFricScale ≤ 1) :
    hor (B L e i) ≤ e.frictionCoefficient * |B L e i 2| := by
  have := C33_bounded_partial L e i hμ hf
  rwa [max_eq_left hr, one_mul] at this

/-- A node in contact with a seabed at height `100` above it, with friction -/
noncomputable def ground (scale : ℝ) : Env :=
  { vacuum with
    kb := 1
    cb := 1
    frictionCoefficient := 1
    fricDamp := 1
    statDynFricScale := scale
    waterDepth := fun _ _ => 4 }

example : onSeabed elbow (ground 1) 0 := by simp [onSeabed, elbow, ground]

/-- C33 fails for the kinetic limit when the static to dynamic ratio is over one: a sliding node
has a friction over the kinetic limit. -/
theorem C33_kinetic_limit_false : ∃ (L : Line) (e : Env), 0 ≤ e.frictionCoefficient ∧
    0 ≤ e.fricDamp ∧ 0 < speed L 0 ∧ e.frictionCoefficient * |B L e 0 2| < hor (B L e 0) := by
  have hB : B { elbow with rd := fun _ => ![3, 0, 0] } (ground 2) 0 = ![-3, 0, 2] := by
    have h3 : Real.sqrt (3 * 3) = 3 := Real.sqrt_mul_self (by norm_num)
    unfold B
    simp [elbow, ground, vacuum, adjacent, h3]
    norm_num
  refine ⟨{ elbow with rd := fun _ => ![3, 0, 0] }, ground 2, zero_le_one, zero_le_one, ?_, ?_⟩
  · simp [speed, hor]
  · rw [hB]
    have h3 : Real.sqrt (3 ^ 2) = 3 := Real.sqrt_sq (by norm_num)
    simp [hor, ground, h3]
    norm_num

/-- C33, normal force: it does not pull the line down if the node is not moving upwards. Missing:
nodes moving upwards, for which it is false (`C33_suction_false`). -/
theorem C33_normal_force_partial (L : Line) (e : Env) (i : ℕ) (hd : 0 ≤ L.d) (hl : ∀ j, 0 ≤ L.l j)
    (hk : 0 ≤ e.kb) (hc : 0 ≤ e.cb) (hv : L.rd i 2 ≤ 0) : 0 ≤ B L e i 2 := by
  unfold B
  dsimp only
  split
  · rename_i h
    have hadj := adjacent_nonneg L.N L.l hl i
    have h1 : 0 ≤ (e.waterDepth (L.r i 0) (L.r i 1) - L.r i 2) * e.kb - L.rd i 2 * e.cb := by
      have := mul_nonneg (sub_nonneg.2 h.le) hk
      have := mul_nonneg (neg_nonneg.2 hv) hc
      linarith
    have h2 : 0 ≤ ((e.waterDepth (L.r i 0) (L.r i 1) - L.r i 2) * e.kb - L.rd i 2 * e.cb) *
        (1 / 2) * L.d * adjacent L.N L.l i := by positivity
    split <;> exact h2
  · exact le_refl _

/-- C33 fails for the normal force of a node leaving the seabed: the seabed pulls it down. -/
theorem C33_suction_false : ∃ (L : Line) (e : Env), 0 ≤ L.d ∧ (∀ j, 0 ≤ L.l j) ∧ 0 ≤ e.kb ∧ 0 ≤ e.cb ∧
    B L e 0 2 < 0 := by
  refine ⟨{ elbow with rd := fun _ => ![0, 0, 5] }, ground 1, zero_le_one, fun _ => zero_le_one,
    zero_le_one, zero_le_one, ?_⟩
  unfold B
  simp [elbow, ground, vacuum, adjacent]
  norm_num

/-- The seabed force given by the API for a node away from the seabed is its bending force, so
that it does not vanish there. -/
theorem C33_reported_force (L : Line) (e : Env) (i : ℕ) (hi : i ≤ L.N)
    (h : e.waterDepth (L.r i 0) (L.r i 1) ≤ L.r i 2) :
    getNodeSeabedForce L e i = some (Bs L i) := by
  unfold getNodeSeabedForce
  rw [if_neg (by omega), C33_no_contact L e i h, zero_add]

/-! ## C65 -/

/-- C65, set and get: the stiffness set is the one got, and the one of the tension. -/
theorem C65_set_get (L : Line) (EA : ℝ) (hA : L.A ≠ 0) : getConstantEA (setConstantEA L EA) = EA := by
  unfold getConstantEA setConstantEA
  exact div_mul_cancel₀ EA hA

/-- C65: the tension of the line after changing its stiffness. -/
theorem C65_set_tension (L : Line) (EA : ℝ) (i : ℕ) (hA : 0 < L.A) (hEA : 0 ≤ EA)
    (hs : L.stiff = none) (hl : 0 < L.l i) (h : L.l i < norm (L.r (i + 1) - L.r i))
    (htol : 100 * eps / 2 < norm (L.r (i + 1) - L.r i)) :
    norm (T (setConstantEA L EA) i) = EA * (norm (L.r (i + 1) - L.r i) / L.l i - 1) := by
  rw [(C30_constant (setConstantEA L EA) i hl hs (div_nonneg hEA hA.le) hA.le h htol).1]
  congr 1
  exact div_mul_cancel₀ EA hA.ne'

/-- C65 fails for the query of the kind of stiffness: for every line it answers the opposite. -/
theorem C65_query_false (L : Line) : isConstantEA L = true ↔ L.stiff ≠ none := by
  unfold isConstantEA
  cases L.stiff <;> simp

end MD.Mooring
