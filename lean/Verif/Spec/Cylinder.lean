import Mathlib.Analysis.SpecialFunctions.Integrals.Basic
import Mathlib.Analysis.SpecialFunctions.Trigonometric.InverseDeriv

/-!
# Specification: the water displaced by an inclined cylinder

A cylinder of radius `a` stands in still water with its lower end under the surface, inclined by
`phi`; the surface crosses its axis at the distance `h` from the lower end. Its points are given
by the distance `s` along the axis and the distance `x = a u` (`-1 ≤ u ≤ 1`) from the axis towards
the deeper side; the section parallel to the plane of the inclination has the width
`2 a √(1 - u²)` there. Such a point is under the surface if `s < h + x tan phi`; its horizontal
distance from the centre of the lower end is `s sin phi + x cos phi`.
-/

namespace MD.Cyl

open Real intervalIntegral

/-- The displaced volume -/
noncomputable def volume (a h phi : ℝ) : ℝ :=
  ∫ u in (-1 : ℝ)..1, 2 * a * √(1 - u ^ 2) * a * ∫ _s in (0 : ℝ)..(h + a * u * tan phi), (1 : ℝ)

/-- The first moment of the displaced volume about the horizontal line through the centre of the
lower end: the moment of the buoyancy is this times the specific weight of water. -/
noncomputable def moment (a h phi : ℝ) : ℝ :=
  ∫ u in (-1 : ℝ)..1, 2 * a * √(1 - u ^ 2) * a *
    ∫ s in (0 : ℝ)..(h + a * u * tan phi), (s * sin phi + a * u * cos phi)

/-! ## Closed forms -/

theorem first : ∫ u in (-1 : ℝ)..1, u * √(1 - u ^ 2) = 0 := by
  have h := intervalIntegral.integral_comp_neg (a := -1) (b := 1)
    (fun u : ℝ => u * √(1 - u ^ 2))
  simp only [neg_neg, neg_sq, neg_mul, intervalIntegral.integral_neg] at h
  linarith

theorem second : ∫ u in (-1 : ℝ)..1, u ^ 2 * √(1 - u ^ 2) = π / 8 := by
  have hF : ∀ x ∈ Set.Ioo (-1 : ℝ) 1, HasDerivAt
      (fun u : ℝ => arcsin u / 8 - u * √(1 - u ^ 2) * (1 - 2 * u ^ 2) / 8)
      (x ^ 2 * √(1 - x ^ 2)) x := by
    intro x hx
    have hp : 0 < 1 - x ^ 2 := by nlinarith [hx.1, hx.2]
    have hw : 0 < √(1 - x ^ 2) := Real.sqrt_pos.2 hp
    have hs : √(1 - x ^ 2) ^ 2 = 1 - x ^ 2 := Real.sq_sqrt hp.le
    have h1 := (Real.hasDerivAt_arcsin hx.1.ne' hx.2.ne).div_const 8
    have h2 : HasDerivAt (fun u : ℝ => 1 - u ^ 2) (-(2 * x)) x := by
      have := ((hasDerivAt_id x).pow 2).const_sub 1
      simpa using this
    have h3 := h2.sqrt hp.ne'
    have h4 : HasDerivAt (fun u : ℝ => 1 - 2 * u ^ 2) (-(4 * x)) x := by
      have := (((hasDerivAt_id x).pow 2).const_mul 2).const_sub 1
      exact HasDerivAt.congr_deriv this (by norm_num; ring)
    have h5 := ((((hasDerivAt_id x).mul h3).mul h4).div_const 8)
    have h6 := h1.sub h5
    refine HasDerivAt.congr_deriv h6 ?_
    simp only [id, Pi.mul_apply]
    field_simp
    rw [hs]
    ring
  have hc : ContinuousOn (fun u : ℝ => arcsin u / 8 - u * √(1 - u ^ 2) * (1 - 2 * u ^ 2) / 8)
      (Set.Icc (-1) 1) := by
    apply Continuous.continuousOn
    have := Real.continuous_arcsin
    fun_prop
  rw [intervalIntegral.integral_eq_sub_of_hasDerivAt_of_le (by norm_num) hc hF
    (Continuous.intervalIntegrable (by fun_prop) _ _)]
  simp [Real.arcsin_one]
  ring

/-- Any quadratic weight. -/
theorem disc (c0 c1 c2 : ℝ) :
    ∫ u in (-1 : ℝ)..1, √(1 - u ^ 2) * (c0 + c1 * u + c2 * u ^ 2) =
      c0 * (π / 2) + c2 * (π / 8) := by
  have h : (fun u : ℝ => √(1 - u ^ 2) * (c0 + c1 * u + c2 * u ^ 2)) = fun u : ℝ =>
      (c0 * √(1 - u ^ 2) + c1 * (u * √(1 - u ^ 2))) + c2 * (u ^ 2 * √(1 - u ^ 2)) := by
    funext u; ring
  rw [h, intervalIntegral.integral_add, intervalIntegral.integral_add,
    intervalIntegral.integral_const_mul, intervalIntegral.integral_const_mul,
    intervalIntegral.integral_const_mul, integral_sqrt_one_sub_sq, first, second]
  · ring
  all_goals exact Continuous.intervalIntegrable (by fun_prop) _ _

/-- The cylinder displaces its cross section times the submerged length of its axis. -/
theorem volume_eq (a h phi : ℝ) : volume a h phi = π * a ^ 2 * h := by
  unfold volume
  have : (fun u : ℝ => 2 * a * √(1 - u ^ 2) * a *
      ∫ _s in (0 : ℝ)..(h + a * u * tan phi), (1 : ℝ)) =
      fun u : ℝ => √(1 - u ^ 2) * (2 * a ^ 2 * h + 2 * a ^ 3 * tan phi * u + 0 * u ^ 2) := by
    funext u
    rw [intervalIntegral.integral_const]
    simp
    ring
  rw [this, disc]
  ring

/-- Its moment: that of a column of length `h`, and that of the second moment of area of the
cross section. -/
theorem moment_eq (a h phi : ℝ) (hc : cos phi ≠ 0) :
    moment a h phi =
      sin phi * (π * a ^ 2 * (h ^ 2 / 2) + π / 4 * a ^ 4 * (1 + tan phi ^ 2 / 2)) := by
  unfold moment
  have inner : ∀ H x y : ℝ, ∫ s in (0 : ℝ)..H, (s * x + y) = H ^ 2 / 2 * x + H * y := by
    intro H x y
    rw [intervalIntegral.integral_add (Continuous.intervalIntegrable (by fun_prop) _ _)
      (Continuous.intervalIntegrable (by fun_prop) _ _), intervalIntegral.integral_mul_const,
      integral_id, intervalIntegral.integral_const]
    simp
  have : (fun u : ℝ => 2 * a * √(1 - u ^ 2) * a *
      ∫ s in (0 : ℝ)..(h + a * u * tan phi), (s * sin phi + a * u * cos phi)) =
      fun u : ℝ => √(1 - u ^ 2) * (a ^ 2 * h ^ 2 * sin phi +
        (2 * a ^ 3 * h * tan phi * sin phi + 2 * a ^ 3 * h * cos phi) * u +
        (a ^ 4 * tan phi ^ 2 * sin phi + 2 * a ^ 4 * tan phi * cos phi) * u ^ 2) := by
    funext u
    rw [inner]
    ring
  rw [this, disc, mul_assoc (2 * a ^ 4), Real.tan_mul_cos hc]
  ring

end MD.Cyl
