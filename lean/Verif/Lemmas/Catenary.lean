/-
Calculus of the two functions of the catenary solver: `lg` is the inverse hyperbolic sine and
`sq` is the hyperbolic cosine of it.
-/
import Verif.Model.Catenary
import Mathlib.Analysis.SpecialFunctions.Arsinh
import Mathlib.Analysis.SpecialFunctions.Sqrt
import Mathlib.Analysis.Calculus.Deriv.MeanValue
import Mathlib.Tactic.Linarith
import Mathlib.Tactic.Ring
import Mathlib.Tactic.FieldSimp
import Mathlib.Tactic.Positivity

namespace MD.Catenary

theorem sq_pos (x : ℝ) : 0 < sq x := Real.sqrt_pos.2 (by nlinarith [mul_self_nonneg x])

theorem sq_sq (x : ℝ) : sq x * sq x = 1 + x * x :=
  Real.mul_self_sqrt (by nlinarith [mul_self_nonneg x])

theorem sq_zero : sq 0 = 1 := by simp [sq]

theorem abs_lt_sq (x : ℝ) : |x| < sq x := by
  apply Real.lt_sqrt_of_sq_lt
  rw [sq_abs]
  nlinarith

theorem one_le_sq (x : ℝ) : 1 ≤ sq x := by
  apply Real.le_sqrt_of_sq_le
  nlinarith [mul_self_nonneg x]

theorem add_sq_pos (x : ℝ) : 0 < x + sq x := by
  have h1 := abs_lt_sq x
  have h2 := neg_abs_le x
  linarith

theorem lg_eq (x : ℝ) : lg x = Real.arsinh x := by
  unfold lg sq Real.arsinh
  rw [pow_two]

theorem lg_zero : lg 0 = 0 := by rw [lg_eq, Real.arsinh_zero]

theorem lg_neg (x : ℝ) : lg (-x) = -lg x := by rw [lg_eq, lg_eq, Real.arsinh_neg]

theorem lg_strictMono : StrictMono lg := by
  have : lg = Real.arsinh := funext lg_eq
  rw [this]
  exact Real.arsinh_strictMono

theorem hasDerivAt_lg (x : ℝ) : HasDerivAt lg (1 / sq x) x := by
  have : lg = Real.arsinh := funext lg_eq
  rw [this, one_div]
  have h := Real.hasDerivAt_arsinh x
  unfold sq
  rwa [← pow_two]

theorem hasDerivAt_sq (x : ℝ) : HasDerivAt sq (x / sq x) x := by
  have h1 : HasDerivAt (fun y : ℝ => 1 + y * y) (x + x) x := by
    have := ((hasDerivAt_id x).mul (hasDerivAt_id x)).const_add 1
    simpa using this
  have h2 := h1.sqrt (by nlinarith [mul_self_nonneg x])
  have h3 : (x + x) / (2 * Real.sqrt (1 + x * x)) = x / sq x := by
    have := (sq_pos x).ne'
    unfold sq at this ⊢
    field_simp
    ring
  rw [h3] at h2
  exact h2

/-- The quotients of the Jacobian in closed form. -/
theorem quot1 (x : ℝ) : (x + x * x / sq x) / (x + sq x) = x / sq x := by
  have h1 := (sq_pos x).ne'
  have h2 := (add_sq_pos x).ne'
  field_simp
  ring

theorem quot2 (x : ℝ) : (1 + x / sq x) / (x + sq x) = 1 / sq x := by
  have h1 := (sq_pos x).ne'
  have h2 := (add_sq_pos x).ne'
  field_simp
  ring

theorem quot3 (x : ℝ) : sq x - x * x / sq x = 1 / sq x := by
  have h1 := (sq_pos x).ne'
  field_simp
  have := sq_sq x
  linarith [this, pow_two (sq x), pow_two x]

/-- The quadratic form whose increments are the compliance of the catenary. -/
noncomputable def G (a b x : ℝ) : ℝ :=
  a * a * (lg x - x / sq x) + 2 * a * b * (1 / sq x) + b * b * (x / sq x)

theorem hasDerivAt_inv_sq (x : ℝ) : HasDerivAt (fun y => 1 / sq y) (-(x / (sq x * sq x * sq x))) x := by
  have h := ((hasDerivAt_sq x).inv (sq_pos x).ne')
  have e : (fun y => 1 / sq y) = fun y => (sq y)⁻¹ := by funext y; rw [one_div]
  rw [e]
  refine h.congr_deriv ?_
  have := (sq_pos x).ne'
  field_simp

theorem hasDerivAt_div_sq (x : ℝ) : HasDerivAt (fun y => y / sq y) (1 / (sq x * sq x * sq x)) x := by
  have h := ((hasDerivAt_id x).mul (hasDerivAt_inv_sq x))
  have e : (fun y => y / sq y) = id * (fun y => 1 / sq y) := by
    funext y; simp [div_eq_mul_inv]
  rw [e]
  refine h.congr_deriv ?_
  have := (sq_pos x).ne'
  have h2 := sq_sq x
  simp only [id]
  field_simp
  linarith [pow_two (sq x), pow_two x]

theorem hasDerivAt_G (a b x : ℝ) :
    HasDerivAt (G a b) (1 / sq x * ((a * x - b) / sq x) ^ 2) x := by
  have h1 := ((hasDerivAt_lg x).sub (hasDerivAt_div_sq x)).const_mul (a * a)
  have h2 := (hasDerivAt_inv_sq x).const_mul (2 * a * b)
  have h3 := (hasDerivAt_div_sq x).const_mul (b * b)
  have h := (h1.add h2).add h3
  refine h.congr_deriv ?_
  have := (sq_pos x).ne'
  have h4 := sq_sq x
  field_simp
  have : sq x ^ 2 = 1 + x ^ 2 := by rw [pow_two, pow_two]; exact h4
  rw [this]
  ring

theorem G_mono (a b : ℝ) : Monotone (G a b) :=
  monotone_of_hasDerivAt_nonneg (fun x => hasDerivAt_G a b x)
    (fun x => by have := sq_pos x; positivity)

/-- The compliance between two inclinations is positive semidefinite. -/
theorem compliance_det (x y : ℝ) (h : x ≤ y) :
    ((1 / sq y) - (1 / sq x)) ^ 2 ≤
      ((lg y - y / sq y) - (lg x - x / sq x)) * (y / sq y - x / sq x) := by
  set A := (lg y - y / sq y) - (lg x - x / sq x) with hA
  set B := (1 / sq y) - (1 / sq x) with hB
  set C := y / sq y - x / sq x with hC
  have key : ∀ a b : ℝ, 0 ≤ a * a * A + 2 * a * b * B + b * b * C := by
    intro a b
    have := G_mono a b h
    unfold G at this
    rw [hA, hB, hC]
    linarith
  have hA0 : 0 ≤ A := by have := key 1 0; linarith
  have hC0 : 0 ≤ C := by have := key 0 1; linarith
  rcases hC0.eq_or_lt with h0 | h0
  · have hB0 : B = 0 := by
      by_contra hne
      have h1 := key B (-(A + 1))
      have h2 := key B (-(A + 1) / 2)
      rw [← h0] at h1
      have h3 : 0 < B * B := mul_self_pos.2 hne
      nlinarith
    rw [hB0, ← h0]
    simp
  · have h1 := key C (-B)
    have h2 : C * (A * C - B ^ 2) ≥ 0 := by nlinarith
    have h3 := nonneg_of_mul_nonneg_right h2 h0
    linarith

theorem div_sq_strictMono {x y : ℝ} (h : x < y) : x / sq x < y / sq y := by
  have : StrictMono (fun z => z / sq z) :=
    strictMono_of_hasDerivAt_pos (fun z => hasDerivAt_div_sq z)
      (fun z => by have := sq_pos z; positivity)
  exact this h

theorem lg_sub_mono {x y : ℝ} (h : x ≤ y) : lg x - x / sq x ≤ lg y - y / sq y := by
  have := G_mono 1 0 h
  unfold G at this
  linarith

end MD.Catenary
