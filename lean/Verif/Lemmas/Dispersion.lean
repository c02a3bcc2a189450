import Mathlib.Analysis.SpecialFunctions.Trigonometric.DerivHyp
import Mathlib.Analysis.SpecialFunctions.Artanh
import Mathlib.Analysis.SpecialFunctions.Log.Deriv
import Mathlib.Analysis.Complex.ExponentialBounds
import Mathlib.Analysis.Calculus.Deriv.MeanValue
import Verif.Model.WaveNumber

/-!
# Lemmas on the dispersion relation and its approximate solution
-/

namespace MD.Waves.Disp

open Real

/-! ## The hyperbolic tangent -/

theorem tanh_sub' (a b : ℝ) : tanh (a - b) * (1 - tanh a * tanh b) = tanh a - tanh b := by
  have ha := (cosh_pos a).ne'
  have hb := (cosh_pos b).ne'
  have hab := (cosh_pos (a - b)).ne'
  have h : cosh (a - b) = cosh a * cosh b - sinh a * sinh b := cosh_sub a b
  rw [tanh_eq_sinh_div_cosh, tanh_eq_sinh_div_cosh, tanh_eq_sinh_div_cosh]
  have h2 : 1 - sinh a / cosh a * (sinh b / cosh b) = cosh (a - b) / (cosh a * cosh b) := by
    rw [h]; field_simp
  rw [h2, sinh_sub]
  field_simp

theorem tanh_strictMono' : StrictMono tanh := by
  intro x y hxy
  by_contra h
  push Not at h
  have := artanh_le_artanh (tanh_bijOn.mapsTo (Set.mem_univ y)).1 (tanh_bijOn.mapsTo (Set.mem_univ x)).2 h
  rw [artanh_tanh, artanh_tanh] at this
  linarith

theorem hasDerivAt_tanh' (x : ℝ) : HasDerivAt tanh (1 - tanh x ^ 2) x := by
  have hc := (cosh_pos x).ne'
  have h := (hasDerivAt_sinh x).div (hasDerivAt_cosh x) hc
  have e : (fun y => sinh y / cosh y) = tanh := by funext y; rw [tanh_eq_sinh_div_cosh]
  have e' : (sinh / cosh : ℝ → ℝ) = tanh := e
  rw [e'] at h
  refine h.congr_deriv ?_
  rw [tanh_eq_sinh_div_cosh]
  field_simp

theorem tanh_nonneg' {x : ℝ} (hx : 0 ≤ x) : 0 ≤ tanh x := by
  rw [tanh_eq_sinh_div_cosh]
  exact div_nonneg (sinh_nonneg_iff.2 hx) (cosh_pos x).le

theorem tanh_le' {x : ℝ} (hx : 0 ≤ x) : tanh x ≤ x := by
  have hm : MonotoneOn (fun y => y - tanh y) (Set.Ici 0) := by
    apply monotoneOn_of_deriv_nonneg (convex_Ici 0)
    · exact fun y _ => ((hasDerivAt_id y).sub (hasDerivAt_tanh' y)).continuousAt.continuousWithinAt
    · exact fun y _ => ((hasDerivAt_id y).sub (hasDerivAt_tanh' y)).differentiableAt.differentiableWithinAt
    · intro y _
      have := ((hasDerivAt_id y).sub (hasDerivAt_tanh' y)).deriv
      have e : (fun y => y - tanh y) = (id - tanh : ℝ → ℝ) := rfl
      rw [e, this]
      nlinarith [sq_nonneg (tanh y)]
  have := hm (Set.mem_Ici.2 le_rfl) (Set.mem_Ici.2 hx) hx
  simp only [tanh_zero, sub_zero] at this
  linarith

theorem le_tanh' {x : ℝ} (hx : 0 ≤ x) : x - x ^ 3 / 3 ≤ tanh x := by
  have hd : ∀ y : ℝ, HasDerivAt (fun y => tanh y - y + y ^ 3 / 3) (1 - tanh y ^ 2 - 1 + y ^ 2) y := by
    intro y
    have h3 : HasDerivAt (fun y : ℝ => y ^ 3 / 3) (y ^ 2) y := by
      have := ((hasDerivAt_pow 3 y).div_const 3)
      refine this.congr_deriv ?_
      norm_num
    exact ((hasDerivAt_tanh' y).sub (hasDerivAt_id' y)).add h3
  have hm : MonotoneOn (fun y => tanh y - y + y ^ 3 / 3) (Set.Ici 0) := by
    apply monotoneOn_of_deriv_nonneg (convex_Ici 0)
    · exact fun y _ => (hd y).continuousAt.continuousWithinAt
    · exact fun y _ => (hd y).differentiableAt.differentiableWithinAt
    · intro y hy
      rw [(hd y).deriv]
      have hy : 0 ≤ y := by
        rw [interior_Ici] at hy
        exact le_of_lt hy
      have h1 := tanh_le' hy
      have h0 := tanh_nonneg' hy
      nlinarith
  have := hm (Set.mem_Ici.2 le_rfl) (Set.mem_Ici.2 hx) hx
  simp only [tanh_zero] at this
  norm_num at this
  linarith

theorem abs_tanh_le (x : ℝ) : |tanh x| ≤ |x| := by
  rcases le_total 0 x with h | h
  · rw [abs_of_nonneg h, abs_of_nonneg (tanh_nonneg' h)]; exact tanh_le' h
  · have h' : 0 ≤ -x := by linarith
    have h1 := tanh_nonneg' h'
    have h2 := tanh_le' h'
    rw [tanh_neg] at h1 h2
    rw [abs_of_nonpos h, abs_of_nonpos (by linarith)]
    exact h2

theorem abs_sub_tanh_le (x : ℝ) : |x - tanh x| ≤ |x| ^ 3 / 3 := by
  rcases le_total 0 x with h | h
  · have h1 := tanh_le' h
    have h2 := le_tanh' h
    rw [abs_of_nonneg h, abs_of_nonneg (by linarith)]; linarith
  · have h' : 0 ≤ -x := by linarith
    have h1 := tanh_le' h'
    have h2 := le_tanh' h'
    rw [tanh_neg] at h1 h2
    rw [abs_of_nonpos h, abs_of_nonpos (by linarith)]; linarith

/-! ## How far the guess is from the solution: `atanh (C / X) - X` -/

/-- The residual of the guess. -/
noncomputable def dl (C X : ℝ) : ℝ := 0.5 * log ((X + C) / (X - C)) - X

theorem tanh_dl {C X : ℝ} (hC : 0 < C) (hX : C < X) : tanh (X + dl C X) = C / X := by
  have hX0 : 0 < X := hC.trans hX
  have h1 : C / X < 1 := (div_lt_one hX0).2 hX
  have h0 : 0 < C / X := div_pos hC hX0
  have e : X + dl C X = artanh (C / X) := by
    rw [artanh_eq_half_log ⟨by linarith, h1.le⟩, dl]
    have : (1 + C / X) / (1 - C / X) = (X + C) / (X - C) := by
      have : X - C ≠ 0 := by linarith
      field_simp
    rw [this]; ring
  rw [e, tanh_artanh ⟨by linarith, h1⟩]

/-! ### Small arguments -/

theorem low_ineq {C : ℝ} (h0 : 0 ≤ C) (h2 : C ≤ 2) :
    0 ≤ (1 - 0.169 * C - 0.093 * C ^ 2) -
      (1 + 0.507 * C + 0.155 * C ^ 2 - 0.018 * C - C ^ 10 / 2048) * ((1 + 0.169 * C + 0.031 * C ^ 2) ^ 2 - C) := by
  have h2' : 0 ≤ 2 - C := by linarith
  have : (1 - 0.169 * C - 0.093 * C ^ 2) -
      (1 + 0.507 * C + 0.155 * C ^ 2 - 0.018 * C - C ^ 10 / 2048) * ((1 + 0.169 * C + 0.031 * C ^ 2) ^ 2 - C) =
      C * ((1/2048000) * C^0 * (2-C)^13 + (11157/4096000000) * C^1 * (2-C)^12 + (36789671/2048000000000) * C^2 * (2-C)^11 + (282261987/2048000000000) * C^3 * (2-C)^10 + (1303081889/2048000000000) * C^4 * (2-C)^9 + (3620694161/2048000000000) * C^5 * (2-C)^8 + (3243812147/1024000000000) * C^6 * (2-C)^7 + (3888044479/1024000000000) * C^7 * (2-C)^6 + (3125671649/1024000000000) * C^8 * (2-C)^5 + (1651837907/1024000000000) * C^9 * (2-C)^4 + (1115856211/2048000000000) * C^10 * (2-C)^3 + (223335769/2048000000000) * C^11 * (2-C)^2 + (15184137/2048000000000) * C^12 * (2-C)^1 + (205311/2048000000000) * C^13 * (2-C)^0) := by ring
  rw [this]
  positivity

theorem up_ineq {C : ℝ} (h0 : 0 ≤ C) (h2 : C ≤ 2) :
    0 ≤ (1 + 0.507 * C + 0.155 * C ^ 2 + 0.05 * C) * ((1 + 0.169 * C + 0.031 * C ^ 2) ^ 2 - C) -
      (1 - 0.169 * C - 0.093 * C ^ 2) := by
  have h2' : 0 ≤ 2 - C := by linarith
  have : (1 + 0.507 * C + 0.155 * C ^ 2 + 0.05 * C) * ((1 + 0.169 * C + 0.031 * C ^ 2) ^ 2 - C) -
      (1 - 0.169 * C - 0.093 * C ^ 2) =
      C * ((1/64000) * C^0 * (2-C)^12 + (353827/2048000000) * C^1 * (2-C)^11 + (848358977/1024000000000) * C^2 * (2-C)^10 + (289376959/128000000000) * C^3 * (2-C)^9 + (3938352051/1024000000000) * C^4 * (2-C)^8 + (266316631/64000000000) * C^5 * (2-C)^7 + (1404786761/512000000000) * C^6 * (2-C)^6 + (119402313/128000000000) * C^7 * (2-C)^5 + (41601991/512000000000) * C^8 * (2-C)^4 + (13384029/256000000000) * C^9 * (2-C)^3 + (117149981/1024000000000) * C^10 * (2-C)^2 + (481329/8000000000) * C^11 * (2-C)^1 + (10721487/1024000000000) * C^12 * (2-C)^0) := by ring
  rw [this]
  positivity

theorem gap_pos {s : ℝ} (h0 : 0 ≤ s) (h2 : s ^ 2 ≤ 2) : 0 < 1 + 0.169 * s ^ 2 + 0.031 * s ^ 4 - s := by
  have h : s ≤ 1.415 := by
    by_contra h
    push Not at h
    nlinarith
  nlinarith [sq_nonneg (s - 1.415), sq_nonneg (s ^ 2 - 2)]

/-- The residual of the guess for small arguments, in terms of the square root. -/
noncomputable def dls (s : ℝ) : ℝ :=
  0.5 * (log (1 + 0.169 * s ^ 2 + 0.031 * s ^ 4 + s) - log (1 + 0.169 * s ^ 2 + 0.031 * s ^ 4 - s)) -
    s * (1 + 0.169 * s ^ 2 + 0.031 * s ^ 4)

theorem dls_zero : dls 0 = 0 := by simp [dls]

theorem hasDerivAt_dls {s : ℝ} (h0 : 0 ≤ s) (h2 : s ^ 2 ≤ 2) :
    HasDerivAt dls ((1 - 0.169 * s ^ 2 - 0.093 * (s ^ 2) ^ 2) / ((1 + 0.169 * s ^ 2 + 0.031 * (s ^ 2) ^ 2) ^ 2 - s ^ 2) -
      (1 + 0.507 * s ^ 2 + 0.155 * (s ^ 2) ^ 2)) s := by
  have hm := gap_pos h0 h2
  have hp : 0 < 1 + 0.169 * s ^ 2 + 0.031 * s ^ 4 + s := by linarith
  have hq : HasDerivAt (fun s : ℝ => 1 + 0.169 * s ^ 2 + 0.031 * s ^ 4) (0.338 * s + 0.124 * s ^ 3) s := by
    have a := ((hasDerivAt_pow 2 s).const_mul (0.169 : ℝ)).const_add (1 : ℝ)
    have b := (hasDerivAt_pow 4 s).const_mul (0.031 : ℝ)
    refine (a.add b).congr_deriv ?_
    norm_num
    ring
  have hqp : HasDerivAt (fun s : ℝ => 1 + 0.169 * s ^ 2 + 0.031 * s ^ 4 + s) (0.338 * s + 0.124 * s ^ 3 + 1) s :=
    hq.add (hasDerivAt_id' s)
  have hqm : HasDerivAt (fun s : ℝ => 1 + 0.169 * s ^ 2 + 0.031 * s ^ 4 - s) (0.338 * s + 0.124 * s ^ 3 - 1) s :=
    hq.sub (hasDerivAt_id' s)
  have hl := ((hqp.log hp.ne').sub (hqm.log hm.ne')).const_mul (0.5 : ℝ)
  have h := hl.sub ((hasDerivAt_id' s).mul hq)
  have hP : (1 + 0.169 * s ^ 2 + 0.031 * (s ^ 2) ^ 2) ^ 2 - s ^ 2 =
      (1 + 0.169 * s ^ 2 + 0.031 * s ^ 4 + s) * (1 + 0.169 * s ^ 2 + 0.031 * s ^ 4 - s) := by ring
  refine h.congr_deriv ?_
  rw [hP]
  have hn : 1 - 0.169 * s ^ 2 - 0.093 * (s ^ 2) ^ 2 =
      (1 + 0.169 * s ^ 2 + 0.031 * s ^ 4) - s * (0.338 * s + 0.124 * s ^ 3) := by ring
  have hr : 1 + 0.507 * s ^ 2 + 0.155 * (s ^ 2) ^ 2 =
      (1 + 0.169 * s ^ 2 + 0.031 * s ^ 4) + s * (0.338 * s + 0.124 * s ^ 3) := by ring
  rw [hn, hr]
  generalize 1 + 0.169 * s ^ 2 + 0.031 * s ^ 4 = q at hm hp
  generalize 0.338 * s + 0.124 * s ^ 3 = q'
  have hm' := hm.ne'
  have hp' := hp.ne'
  have e1 : (0.5 : ℝ) * ((q' + 1) / (q + s) - (q' - 1) / (q - s)) = (q - s * q') / ((q + s) * (q - s)) := by
    rw [div_sub_div _ _ hp' hm', ← mul_div_assoc]
    congr 1
    ring
  rw [e1]
  ring

theorem dls_upper {s : ℝ} (h0 : 0 ≤ s) (h2 : s ^ 2 ≤ 2) : dls s ≤ 0.018 * s ^ 3 := by
  have hd : ∀ y ∈ Set.Icc 0 s, HasDerivAt (fun y => 0.05 / 3 * y ^ 3 - dls y)
      (0.05 * y ^ 2 - ((1 - 0.169 * y ^ 2 - 0.093 * (y ^ 2) ^ 2) / ((1 + 0.169 * y ^ 2 + 0.031 * (y ^ 2) ^ 2) ^ 2 - y ^ 2) -
      (1 + 0.507 * y ^ 2 + 0.155 * (y ^ 2) ^ 2))) y := by
    intro y hy
    have hy2 : y ^ 2 ≤ 2 := by nlinarith [hy.1, hy.2]
    have h3 : HasDerivAt (fun y : ℝ => 0.05 / 3 * y ^ 3) (0.05 * y ^ 2) y := by
      refine ((hasDerivAt_pow 3 y).const_mul (0.05 / 3 : ℝ)).congr_deriv ?_
      norm_num
      ring
    exact h3.sub (hasDerivAt_dls hy.1 hy2)
  have hm : MonotoneOn (fun y => 0.05 / 3 * y ^ 3 - dls y) (Set.Icc 0 s) := by
    apply monotoneOn_of_deriv_nonneg (convex_Icc 0 s)
    · exact fun y hy => (hd y hy).continuousAt.continuousWithinAt
    · exact fun y hy => (hd y (interior_subset hy)).differentiableAt.differentiableWithinAt
    · intro y hy
      have hy := interior_subset hy
      rw [(hd y hy).deriv]
      have hy2 : y ^ 2 ≤ 2 := by nlinarith [hy.1, hy.2]
      have hp : 0 < (1 + 0.169 * y ^ 2 + 0.031 * (y ^ 2) ^ 2) ^ 2 - y ^ 2 := by
        have a := gap_pos hy.1 hy2
        have b : 0 < 1 + 0.169 * y ^ 2 + 0.031 * y ^ 4 + y := by linarith [hy.1]
        have := mul_pos b a
        nlinarith
      have hu := up_ineq (sq_nonneg y) hy2
      have : (1 - 0.169 * y ^ 2 - 0.093 * (y ^ 2) ^ 2) / ((1 + 0.169 * y ^ 2 + 0.031 * (y ^ 2) ^ 2) ^ 2 - y ^ 2) ≤
          1 + 0.507 * y ^ 2 + 0.155 * (y ^ 2) ^ 2 + 0.05 * y ^ 2 := by
        rw [div_le_iff₀ hp]
        linarith
      linarith
  have := hm (Set.left_mem_Icc.2 h0) (Set.right_mem_Icc.2 h0) h0
  simp only [dls_zero] at this
  norm_num at this
  have h3 : 0 ≤ s ^ 3 := by positivity
  linarith

theorem dls_lower {s : ℝ} (h0 : 0 ≤ s) (h2 : s ^ 2 ≤ 2) : -(0.018 * s ^ 3) ≤ dls s := by
  have hd : ∀ y ∈ Set.Icc 0 s, HasDerivAt (fun y => dls y + (0.006 * y ^ 3 + y ^ 21 / 43008))
      ((1 - 0.169 * y ^ 2 - 0.093 * (y ^ 2) ^ 2) / ((1 + 0.169 * y ^ 2 + 0.031 * (y ^ 2) ^ 2) ^ 2 - y ^ 2) -
      (1 + 0.507 * y ^ 2 + 0.155 * (y ^ 2) ^ 2) + (0.018 * y ^ 2 + (y ^ 2) ^ 10 / 2048)) y := by
    intro y hy
    have hy2 : y ^ 2 ≤ 2 := by nlinarith [hy.1, hy.2]
    have h3 : HasDerivAt (fun y : ℝ => 0.006 * y ^ 3 + y ^ 21 / 43008) (0.018 * y ^ 2 + (y ^ 2) ^ 10 / 2048) y := by
      refine (((hasDerivAt_pow 3 y).const_mul (0.006 : ℝ)).add ((hasDerivAt_pow 21 y).div_const 43008)).congr_deriv ?_
      norm_num
      ring
    exact (hasDerivAt_dls hy.1 hy2).add h3
  have hm : MonotoneOn (fun y => dls y + (0.006 * y ^ 3 + y ^ 21 / 43008)) (Set.Icc 0 s) := by
    apply monotoneOn_of_deriv_nonneg (convex_Icc 0 s)
    · exact fun y hy => (hd y hy).continuousAt.continuousWithinAt
    · exact fun y hy => (hd y (interior_subset hy)).differentiableAt.differentiableWithinAt
    · intro y hy
      have hy := interior_subset hy
      rw [(hd y hy).deriv]
      have hy2 : y ^ 2 ≤ 2 := by nlinarith [hy.1, hy.2]
      have hp : 0 < (1 + 0.169 * y ^ 2 + 0.031 * (y ^ 2) ^ 2) ^ 2 - y ^ 2 := by
        have a := gap_pos hy.1 hy2
        have b : 0 < 1 + 0.169 * y ^ 2 + 0.031 * y ^ 4 + y := by linarith [hy.1]
        have := mul_pos b a
        nlinarith
      have hu := low_ineq (sq_nonneg y) hy2
      have : 1 + 0.507 * y ^ 2 + 0.155 * (y ^ 2) ^ 2 - 0.018 * y ^ 2 - (y ^ 2) ^ 10 / 2048 ≤
          (1 - 0.169 * y ^ 2 - 0.093 * (y ^ 2) ^ 2) / ((1 + 0.169 * y ^ 2 + 0.031 * (y ^ 2) ^ 2) ^ 2 - y ^ 2) := by
        rw [le_div_iff₀ hp]
        linarith
      linarith
  have := hm (Set.left_mem_Icc.2 h0) (Set.right_mem_Icc.2 h0) h0
  simp only [dls_zero] at this
  norm_num at this
  have h3 : 0 ≤ s ^ 3 := by positivity
  have h9 : (s ^ 2) ^ 9 ≤ 2 ^ 9 := pow_le_pow_left₀ (sq_nonneg s) h2 9
  have h21 : s ^ 21 = s ^ 3 * (s ^ 2) ^ 9 := by ring
  have : s ^ 21 ≤ s ^ 3 * 512 := by
    rw [h21]
    exact mul_le_mul_of_nonneg_left (by norm_num at h9 ⊢; exact h9) h3
  linarith

/-- For small arguments the residual of the guess is small compared with the power 3/2 of the argument. -/
theorem dl_small {C : ℝ} (h0 : 0 < C) (h2 : C ≤ 2) :
    sqrt C * (1 + C * (0.169 + 0.031 * C)) > C ∧ |dl C (sqrt C * (1 + C * (0.169 + 0.031 * C)))| ≤ 0.018 * sqrt C ^ 3 := by
  have hs : 0 < sqrt C := sqrt_pos.2 h0
  have hC : C = sqrt C ^ 2 := (sq_sqrt h0.le).symm
  generalize sqrt C = s at hs hC
  subst hC
  have hm := gap_pos hs.le h2
  have hp : 0 < 1 + 0.169 * s ^ 2 + 0.031 * s ^ 4 + s := by linarith
  have e : s * (1 + s ^ 2 * (0.169 + 0.031 * s ^ 2)) = s * (1 + 0.169 * s ^ 2 + 0.031 * s ^ 4) := by ring
  rw [e]
  refine ⟨by nlinarith [mul_pos hs hm], ?_⟩
  have ed : dl (s ^ 2) (s * (1 + 0.169 * s ^ 2 + 0.031 * s ^ 4)) = dls s := by
    unfold dl dls
    rw [← log_div hp.ne' hm.ne']
    congr 3
    have : s * (1 + 0.169 * s ^ 2 + 0.031 * s ^ 4) - s ^ 2 = s * (1 + 0.169 * s ^ 2 + 0.031 * s ^ 4 - s) := by ring
    rw [this]
    have : s * (1 + 0.169 * s ^ 2 + 0.031 * s ^ 4) + s ^ 2 = s * (1 + 0.169 * s ^ 2 + 0.031 * s ^ 4 + s) := by ring
    rw [this, mul_div_mul_left _ _ hs.ne']
  rw [ed, abs_le]
  exact ⟨dls_lower hs.le h2, dls_upper hs.le h2⟩

/-! ### Large arguments -/

theorem exp_neg_four : exp (-4) < 0.0184 := by
  have e : exp (-4) * exp 1 ^ 4 = 1 := by
    rw [← exp_nat_mul, ← exp_add]
    norm_num
  have g : (2.7182 : ℝ) ^ 4 < exp 1 ^ 4 := pow_lt_pow_left₀ (by have := exp_one_gt_d9; linarith) (by norm_num) (by norm_num)
  have g' : (54.5 : ℝ) < exp 1 ^ 4 := lt_trans (by norm_num) g
  have g0 := exp_pos (-4)
  nlinarith

theorem exp_neg_nine : exp (-9) < 1 / 7000 := by
  have e : exp (-9) * exp 1 ^ 9 = 1 := by
    rw [← exp_nat_mul, ← exp_add]
    norm_num
  have g : (2.7 : ℝ) ^ 9 < exp 1 ^ 9 := pow_lt_pow_left₀ (by have := exp_one_gt_d9; linarith) (by norm_num) (by norm_num)
  have g' : (7000 : ℝ) < exp 1 ^ 9 := lt_trans (by norm_num) g
  have g0 := exp_pos (-9)
  nlinarith

theorem exp_four {C : ℝ} (h : 2 < C) : exp (-2 * C) < 0.0184 :=
  (exp_lt_exp.2 (by linarith)).trans exp_neg_four

theorem exp_nine {C : ℝ} (h : 4.8 < C) : exp (-2 * C) < 1 / 7000 :=
  (exp_lt_exp.2 (by norm_num at h ⊢; linarith)).trans exp_neg_nine

/-- For large arguments the residual of the guess is small. -/
theorem dl_large {C : ℝ} (h2 : 2 < C) :
    C * (1 + exp (-2 * C) * (2 - 12 * exp (-2 * C))) > C ∧
      |dl C (C * (1 + exp (-2 * C) * (2 - 12 * exp (-2 * C))))| ≤ 0.02 := by
  have hE0 := exp_pos (-2 * C)
  have hE1 := exp_four h2
  have hlog : log (exp (-2 * C)) = -2 * C := log_exp _
  have hexp : (2 * C - 3) * exp (-2 * C) ≤ 0.0184 := by
    have a : (2 * C - 4) + 1 ≤ exp (2 * C - 4) := add_one_le_exp _
    have b : exp (2 * C - 4) * exp (-2 * C) = exp (-4) := by rw [← exp_add]; congr 1; ring
    have c := exp_neg_four
    nlinarith
  generalize exp (-2 * C) = E at *
  have hC : 0 < C := by linarith
  have hq : 0 < 1 - 6 * E := by linarith
  have hr : 0 < (1 + 3 * E) * (1 - 2 * E) := by
    apply mul_pos <;> linarith
  refine ⟨by nlinarith [mul_pos hC (mul_pos hE0 hq)], ?_⟩
  have e : dl C (C * (1 + E * (2 - 12 * E))) =
      0.5 * log ((1 + 3 * E) * (1 - 2 * E) / (1 - 6 * E)) - 2 * C * E * (1 - 6 * E) := by
    unfold dl
    have : (C * (1 + E * (2 - 12 * E)) + C) / (C * (1 + E * (2 - 12 * E)) - C) =
        (1 + 3 * E) * (1 - 2 * E) / (1 - 6 * E) / E := by
      have h1 : C * (1 + E * (2 - 12 * E)) + C = (2 * C) * ((1 + 3 * E) * (1 - 2 * E)) := by ring
      have h2 : C * (1 + E * (2 - 12 * E)) - C = (2 * C) * ((1 - 6 * E) * E) := by ring
      rw [h1, h2, mul_div_mul_left _ _ (by positivity), div_div]
    rw [this, log_div (div_pos hr hq).ne' hE0.ne', hlog]
    ring
  rw [e, abs_le]
  have hpos : 0 < (1 + 3 * E) * (1 - 2 * E) / (1 - 6 * E) := div_pos hr hq
  have up := log_le_sub_one_of_pos hpos
  have lo := one_sub_inv_le_log_of_pos hpos
  constructor
  · have : 6.7 * E ≤ 1 - ((1 + 3 * E) * (1 - 2 * E) / (1 - 6 * E))⁻¹ := by
      rw [inv_div, le_sub_iff_add_le, ← le_sub_iff_add_le', div_le_iff₀ hr]
      nlinarith [mul_pos hE0 hE0, mul_pos (mul_pos hE0 hE0) hE0]
    nlinarith [mul_pos hC (mul_pos hE0 hE0)]
  · have : (1 + 3 * E) * (1 - 2 * E) / (1 - 6 * E) - 1 ≤ 7.9 * E := by
      rw [sub_le_iff_le_add, div_le_iff₀ hq]
      nlinarith [mul_pos hE0 hE0]
    have : 4 * E * 0.88 ≤ 2 * C * E * (1 - 6 * E) := by
      have : 4 * E ≤ 2 * C * E := by nlinarith
      have := mul_le_mul this (show (0.88 : ℝ) ≤ 1 - 6 * E by linarith) (by norm_num) (by positivity)
      exact this
    linarith

/-! ## One correction -/

/-- The residual after the correction is of third order. -/
theorem residual {C X : ℝ} (hC : 0 < C) (hX : C < X) (A d κ X1 η : ℝ) (hA : A = 1 / (C + (X ^ 2 - C ^ 2)))
    (hd : d = dl C X * A * (X ^ 2 - C ^ 2)) (hκ : κ = A ^ 2 * dl C X * C * X) (h1 : X1 = X + d * (1 + κ))
    (hη : η = X + dl C X - X1) :
    (X1 * tanh X1 - C) * (1 - C / X * tanh η) =
      -κ * d * dl C X * A * C + (1 + κ) * d ^ 2 * κ + ((X ^ 2 - C ^ 2) / X + d * (1 + κ)) * (η - tanh η) := by
  have hX0 : 0 < X := hC.trans hX
  have hP : 0 < X ^ 2 - C ^ 2 := by nlinarith
  have ht := tanh_sub' (X + dl C X) η
  have e : X + dl C X - η = X1 := by rw [hη]; ring
  rw [e, tanh_dl hC hX] at ht
  have hA' : A * (C + (X ^ 2 - C ^ 2)) = 1 := by rw [hA]; field_simp
  have : (X1 * tanh X1 - C) * (1 - C / X * tanh η) = X1 * (C / X - tanh η) - C * (1 - C / X * tanh η) := by
    rw [← ht]; ring
  rw [this]
  generalize tanh η = t
  have hη' : η = dl C X - d * (1 + κ) := by rw [hη, h1]; ring
  rw [hη', h1]
  generalize dl C X = δ at *
  have hAC : A * C = 1 - A * (X ^ 2 - C ^ 2) := by linarith
  have goal : d * (1 + κ) * C + d * (1 + κ) * (X ^ 2 - C ^ 2) - δ * (X ^ 2 - C ^ 2) = δ * (X ^ 2 - C ^ 2) * κ := by
    have : d * C + d * (X ^ 2 - C ^ 2) = δ * (X ^ 2 - C ^ 2) := by
      rw [hd]
      linear_combination δ * (X ^ 2 - C ^ 2) * hA'
    linear_combination (1 + κ) * this
  have hdk : δ * (X ^ 2 - C ^ 2) * κ / X = d * δ * A * C := by
    rw [hκ, hd]; field_simp
  have hdd : d = δ - δ * A * C := by
    rw [hd]; linear_combination δ * hAC
  have key : (X + d * (1 + κ)) * (C / X) - C - (δ - d * (1 + κ)) * ((X ^ 2 - C ^ 2) / X + d * (1 + κ)) =
      -κ * d * δ * A * C + (1 + κ) * d ^ 2 * κ := by
    have s1 : (X + d * (1 + κ)) * (C / X) - C - (δ - d * (1 + κ)) * ((X ^ 2 - C ^ 2) / X + d * (1 + κ)) =
        (d * (1 + κ) * C + d * (1 + κ) * (X ^ 2 - C ^ 2) - δ * (X ^ 2 - C ^ 2)) / X - d * (1 + κ) * (δ - d * (1 + κ)) := by
      field_simp
      ring
    rw [s1, goal, hdk]
    linear_combination (d * (1 + κ)) * hdd
  have hx : (X + d * (1 + κ)) - C * (C / X) = (X ^ 2 - C ^ 2) / X + d * (1 + κ) := by
    field_simp
    ring
  linear_combination key - t * hx

set_option maxHeartbeats 800000 in
/-- The bound of the residual after the correction. -/
theorem residual_le {C X b : ℝ} (hC : 0 < C) (hX : C < X) (hb : |dl C X| ≤ b) (hbX : b * X ≤ 0.053 * C)
    (A d κ X1 : ℝ) (hA : A = 1 / (C + (X ^ 2 - C ^ 2)))
    (hd : d = dl C X * A * (X ^ 2 - C ^ 2)) (hκ : κ = A ^ 2 * dl C X * C * X) (h1 : X1 = X + d * (1 + κ)) :
    |X1 * tanh X1 - C| * (1 - b) ≤ b ^ 3 * (0.316 * (X / C) + X / 3 + 0.351 * b) ∧ |X + dl C X - X1| ≤ b := by
  have hX0 : 0 < X := hC.trans hX
  have hP : 0 < X ^ 2 - C ^ 2 := by nlinarith
  have h := residual hC hX A d κ X1 (X + dl C X - X1) hA hd hκ h1 rfl
  have hη : X + dl C X - X1 = dl C X * (A * C) - d * κ := by
    have : A * (C + (X ^ 2 - C ^ 2)) = 1 := by rw [hA]; field_simp
    rw [h1]
    linear_combination dl C X * (-this) - hd
  have hA0 : 0 < A := by rw [hA]; positivity
  set α := A * C with hα
  set π' := A * (X ^ 2 - C ^ 2) with hπ
  have hsum : α + π' = 1 := by
    have : A * (C + (X ^ 2 - C ^ 2)) = 1 := by rw [hA]; field_simp
    rw [hα, hπ, ← mul_add]; exact this
  have hα0 : 0 < α := mul_pos hA0 hC
  have hπ0 : 0 < π' := mul_pos hA0 hP
  have hb0 : 0 ≤ b := (abs_nonneg _).trans hb
  have hd' : d = dl C X * π' := by rw [hd, hπ]; ring
  have hκ' : κ = dl C X * (α ^ 2 * (X / C)) := by rw [hκ, hα]; field_simp
  have hy : b * (X / C) ≤ 0.053 := by
    rw [← mul_div_assoc, div_le_iff₀ hC]; exact hbX
  have hy0 : 0 < X / C := div_pos hX0 hC
  generalize hδ : dl C X = δ at *
  have hκb : |κ| ≤ b * (α ^ 2 * (X / C)) := by
    rw [hκ', abs_mul, abs_of_nonneg (a := α ^ 2 * (X / C)) (by positivity)]
    exact mul_le_mul_of_nonneg_right hb (by positivity)
  have hα1 : α ^ 2 ≤ 1 := pow_le_one₀ hα0.le (by linarith)
  have hκ1 : |κ| ≤ 0.053 := by
    refine hκb.trans ?_
    have : b * (α ^ 2 * (X / C)) = α ^ 2 * (b * (X / C)) := by ring
    rw [this]
    have h0 : 0 ≤ b * (X / C) := by positivity
    exact (mul_le_of_le_one_left h0 hα1).trans hy
  have hdb : |d| ≤ b * π' := by
    rw [hd', abs_mul, abs_of_nonneg hπ0.le]
    exact mul_le_mul_of_nonneg_right hb hπ0.le
  have hk1 : |1 + κ| ≤ 1.053 := by
    have := abs_add_le 1 κ
    rw [abs_one] at this
    linarith
  have hηb : |X + δ - X1| ≤ b := by
    rw [hη, hd']
    have e : δ * α - δ * π' * κ = δ * (α - π' * κ) := by ring
    rw [e, abs_mul]
    have : |α - π' * κ| ≤ 1 := by
      have pk : |π' * κ| ≤ π' := by
        rw [abs_mul, abs_of_nonneg hπ0.le]
        exact mul_le_of_le_one_right hπ0.le (by linarith)
      have h3 := abs_le.1 pk
      rw [abs_le]
      constructor <;> linarith
    calc |δ| * |α - π' * κ| ≤ b * 1 := mul_le_mul hb this (abs_nonneg _) hb0
      _ = b := mul_one b
  have hε : |(X + δ - X1) - tanh (X + δ - X1)| ≤ b ^ 3 / 3 := by
    refine (abs_sub_tanh_le _).trans ?_
    have := pow_le_pow_left₀ (abs_nonneg _) hηb 3
    linarith
  have hden : 1 - b ≤ |1 - C / X * tanh (X + δ - X1)| := by
    have ht : |tanh (X + δ - X1)| ≤ b := (abs_tanh_le _).trans hηb
    have hT : |C / X * tanh (X + δ - X1)| ≤ b := by
      rw [abs_mul, abs_of_nonneg (div_nonneg hC.le hX0.le)]
      have : C / X ≤ 1 := (div_le_one hX0).2 hX.le
      calc C / X * |tanh (X + δ - X1)| ≤ 1 * b := mul_le_mul this ht (abs_nonneg _) (by norm_num)
        _ = b := one_mul b
    have := abs_le.1 hT
    exact le_trans (by linarith) (le_abs_self _)
  have hN : |-κ * d * δ * A * C + (1 + κ) * d ^ 2 * κ + ((X ^ 2 - C ^ 2) / X + d * (1 + κ)) *
      ((X + δ - X1) - tanh (X + δ - X1))| ≤ b ^ 3 * (0.316 * (X / C) + X / 3 + 0.351 * b) := by
    have hαπ : α * π' ≤ 1 / 4 := by nlinarith [sq_nonneg (α - π')]
    have m6 : 0 ≤ b ^ 3 * (X / C) := by positivity
    have t1 : |-κ * d * δ * A * C| ≤ b ^ 3 * (X / C) / 4 := by
      have e : -κ * d * δ * A * C = -(κ * d * (δ * α)) := by rw [hα]; ring
      rw [e, abs_neg, abs_mul, abs_mul, abs_mul, abs_of_nonneg hα0.le]
      have m1 : |κ| * |d| ≤ (b * (α ^ 2 * (X / C))) * (b * π') := mul_le_mul hκb hdb (abs_nonneg _) (by positivity)
      have m2 : |δ| * α ≤ b * α := mul_le_mul_of_nonneg_right hb hα0.le
      have m3 : |κ| * |d| * (|δ| * α) ≤ (b * (α ^ 2 * (X / C))) * (b * π') * (b * α) :=
        mul_le_mul m1 m2 (by positivity) (by positivity)
      have m4 : α ^ 2 * (α * π') ≤ 1 / 4 :=
        (mul_le_of_le_one_left (by positivity) hα1).trans hαπ
      have m5 : (b * (α ^ 2 * (X / C))) * (b * π') * (b * α) = b ^ 3 * (X / C) * (α ^ 2 * (α * π')) := by ring
      rw [m5] at m3
      have m7 := mul_le_mul_of_nonneg_left m4 m6
      linarith
    have t2 : |(1 + κ) * d ^ 2 * κ| ≤ 1.053 * (b ^ 3 * (X / C)) / 16 := by
      rw [abs_mul, abs_mul, abs_pow]
      have m1 : |d| ^ 2 ≤ (b * π') ^ 2 := pow_le_pow_left₀ (abs_nonneg _) hdb 2
      have m2 : |1 + κ| * |d| ^ 2 ≤ 1.053 * (b * π') ^ 2 := mul_le_mul hk1 m1 (by positivity) (by norm_num)
      have m3 : |1 + κ| * |d| ^ 2 * |κ| ≤ 1.053 * (b * π') ^ 2 * (b * (α ^ 2 * (X / C))) :=
        mul_le_mul m2 hκb (abs_nonneg _) (by positivity)
      have m4 : (α * π') ^ 2 ≤ (1 / 4) ^ 2 := pow_le_pow_left₀ (by positivity) hαπ 2
      have m5 : 1.053 * (b * π') ^ 2 * (b * (α ^ 2 * (X / C))) = 1.053 * (b ^ 3 * (X / C)) * (α * π') ^ 2 := by ring
      rw [m5] at m3
      have m7 := mul_le_mul_of_nonneg_left m4 m6
      linarith
    have t3 : |((X ^ 2 - C ^ 2) / X + d * (1 + κ)) * ((X + δ - X1) - tanh (X + δ - X1))| ≤
        (X + 1.053 * b) * (b ^ 3 / 3) := by
      rw [abs_mul]
      refine mul_le_mul ?_ hε (abs_nonneg _) (by positivity)
      refine (abs_add_le _ _).trans ?_
      have p1 : |(X ^ 2 - C ^ 2) / X| ≤ X := by
        rw [abs_of_nonneg (div_pos hP hX0).le, div_le_iff₀ hX0]
        have h5 := sq_nonneg C
        have h6 := sq X
        linarith
      have p2 : |d * (1 + κ)| ≤ b * 1.053 := by
        rw [abs_mul]
        have : |d| ≤ b := hdb.trans (mul_le_of_le_one_right hb0 (by linarith))
        exact mul_le_mul this hk1 (abs_nonneg _) hb0
      linarith
    have := (abs_add_le (-κ * d * δ * A * C + (1 + κ) * d ^ 2 * κ) (((X ^ 2 - C ^ 2) / X + d * (1 + κ)) *
      ((X + δ - X1) - tanh (X + δ - X1)))).trans (add_le_add (abs_add_le _ _) le_rfl)
    have e3 : (X + 1.053 * b) * (b ^ 3 / 3) = b ^ 3 * X / 3 + 0.351 * (b ^ 3 * b) := by ring
    have e4 : b ^ 3 * (0.316 * (X / C) + X / 3 + 0.351 * b) =
        0.316 * (b ^ 3 * (X / C)) + b ^ 3 * X / 3 + 0.351 * (b ^ 3 * b) := by ring
    linarith
  refine ⟨?_, hηb⟩
  calc |X1 * tanh X1 - C| * (1 - b) ≤ |X1 * tanh X1 - C| * |1 - C / X * tanh (X + δ - X1)| :=
        mul_le_mul_of_nonneg_left hden (abs_nonneg _)
    _ = _ := by rw [← abs_mul, h]
    _ ≤ _ := hN

/-! ## The code -/

theorem refine_small {C X : ℝ} (hC : C ≤ 4.8) (A d κ : ℝ) (hA : A = 1 / (C + (X ^ 2 - C ^ 2)))
    (hd : d = dl C X * A * (X ^ 2 - C ^ 2)) (hκ : κ = A ^ 2 * dl C X * C * X) : refine C X = X + d * (1 + κ) := by
  unfold Waves.refine
  rw [if_pos hC]
  have e : C - (C * C - X * X) = C + (X ^ 2 - C ^ 2) := by ring
  have e2 : 0.5 * log ((X + C) / (X - C)) - X = dl C X := rfl
  simp only [e, e2, ← hA]
  rw [hκ, hd]
  ring

/-- Arguments up to 2. -/
theorem solves_small {C : ℝ} (hC : 0 < C) (h2 : C ≤ 2) :
    0 < Waves.refine C (guess C) ∧ |Waves.refine C (guess C) * tanh (Waves.refine C (guess C)) - C| ≤ C / 10000 := by
  have hg : guess C = sqrt C * (1 + C * (0.169 + 0.031 * C)) := by rw [guess, if_pos h2]
  obtain ⟨hX, hb⟩ := dl_small hC h2
  rw [← hg] at hX hb
  have hs : 0 < sqrt C := sqrt_pos.2 hC
  have hCs : C = sqrt C ^ 2 := (sq_sqrt hC.le).symm
  generalize sqrt C = s at hs hCs hg hb
  obtain ⟨q, hq⟩ : ∃ q, q = 1 + C * (0.169 + 0.031 * C) := ⟨_, rfl⟩
  rw [← hq] at hg
  have hq1 : 1 ≤ q := by rw [hq]; nlinarith
  have hq2 : q ≤ 1.462 := by rw [hq]; nlinarith
  have hs1 : s ≤ 1.415 := by
    by_contra h
    push Not at h
    nlinarith
  have hs3 : s ^ 3 ≤ 2.83 := by
    have : s ^ 3 = C * s := by rw [hCs]; ring
    rw [this]
    nlinarith
  have hsb : 0.018 * s ^ 3 ≤ 0.051 := by linarith
  have hbX : 0.018 * s ^ 3 * guess C ≤ 0.053 * C := by
    have : 0.018 * s ^ 3 * guess C = 0.018 * (C * (C * q)) := by rw [hg, hCs]; ring
    rw [this]
    have : C * q ≤ 2 * 1.462 := mul_le_mul h2 hq2 (by linarith) (by norm_num)
    nlinarith
  have hr := residual_le hC hX hb hbX _ _ _ _ rfl rfl rfl rfl
  rw [← refine_small (by linarith) _ _ _ rfl rfl rfl] at hr
  obtain ⟨hr, hη⟩ := hr
  refine ⟨?_, ?_⟩
  · have h3 := abs_le.1 hη
    have h4 := abs_le.1 hb
    have : guess C ≥ s := by rw [hg]; nlinarith
    have : 0.018 * s ^ 3 ≤ 0.036 * s := by
      have : s ^ 3 = C * s := by rw [hCs]; ring
      rw [this]
      nlinarith
    linarith
  · have hRHS : (0.018 * s ^ 3) ^ 3 * (0.316 * (guess C / C) + guess C / 3 + 0.351 * (0.018 * s ^ 3)) ≤ 0.00007 * C := by
      have hyv : guess C / C * s = q := by
        rw [hg, hCs]; field_simp
      have e1 : (0.018 * s ^ 3) ^ 3 * (0.316 * (guess C / C) + guess C / 3 + 0.351 * (0.018 * s ^ 3)) =
          0.018 ^ 3 * (0.316 * (C ^ 4 * (guess C / C * s)) + C ^ 5 * q / 3 + 0.351 * 0.018 * C ^ 6) := by
        rw [hg, hCs]; ring
      rw [e1, hyv]
      have c3 : C ^ 3 ≤ 8 := by
        have := pow_le_pow_left₀ hC.le h2 3
        norm_num at this; exact this
      have c4 : C ^ 4 ≤ 16 := by
        have := pow_le_pow_left₀ hC.le h2 4
        norm_num at this; exact this
      have c5 : C ^ 5 ≤ 32 := by
        have := pow_le_pow_left₀ hC.le h2 5
        norm_num at this; exact this
      have d3 : C ^ 3 * q ≤ 8 * 1.462 := mul_le_mul c3 hq2 (by linarith) (by norm_num)
      have d4 : C ^ 4 * q ≤ 16 * 1.462 := mul_le_mul c4 hq2 (by linarith) (by norm_num)
      have e2 : 0.018 ^ 3 * (0.316 * (C ^ 4 * q) + C ^ 5 * q / 3 + 0.351 * 0.018 * C ^ 6) =
          C * (0.018 ^ 3 * (0.316 * (C ^ 3 * q) + C ^ 4 * q / 3 + 0.351 * 0.018 * C ^ 5)) := by ring
      rw [e2, mul_comm]
      refine mul_le_mul_of_nonneg_right ?_ hC.le
      norm_num at d3 d4 ⊢
      linarith
    have h0 := abs_nonneg (Waves.refine C (guess C) * tanh (Waves.refine C (guess C)) - C)
    have : |Waves.refine C (guess C) * tanh (Waves.refine C (guess C)) - C| * 0.949 ≤
        |Waves.refine C (guess C) * tanh (Waves.refine C (guess C)) - C| * (1 - 0.018 * s ^ 3) :=
      mul_le_mul_of_nonneg_left (by linarith) h0
    linarith

/-- Arguments between 2 and 4.8. -/
theorem solves_middle {C : ℝ} (h2 : 2 < C) (h48 : C ≤ 4.8) :
    0 < Waves.refine C (guess C) ∧ |Waves.refine C (guess C) * tanh (Waves.refine C (guess C)) - C| ≤ C / 10000 := by
  have hC : 0 < C := by linarith
  have hg : guess C = C * (1 + exp (-2 * C) * (2 - 12 * exp (-2 * C))) := by rw [guess, if_neg (not_le.2 h2)]
  obtain ⟨hX, hb⟩ := dl_large h2
  rw [← hg] at hX hb
  have hE0 := exp_pos (-2 * C)
  have hE1 := exp_four h2
  have hX2 : guess C ≤ 1.04 * C := by
    rw [hg, mul_comm]
    refine mul_le_mul_of_nonneg_right ?_ hC.le
    nlinarith
  have hr := residual_le hC hX hb (by linarith) _ _ _ _ rfl rfl rfl rfl
  rw [← refine_small h48 _ _ _ rfl rfl rfl] at hr
  obtain ⟨hr, hη⟩ := hr
  refine ⟨?_, ?_⟩
  · have h3 := abs_le.1 hη
    have h4 := abs_le.1 hb
    linarith
  · have hy : guess C / C ≤ 1.04 := by rw [div_le_iff₀ hC]; exact hX2
    norm_num at hr ⊢
    norm_num at hX2 hy
    linarith

/-- Arguments above 4.8, for which there is no correction. -/
theorem solves_large {C : ℝ} (h48 : 4.8 < C) :
    0 < Waves.refine C (guess C) ∧ |Waves.refine C (guess C) * tanh (Waves.refine C (guess C)) - C| ≤ C / 10000 := by
  have h2 : 2 < C := by norm_num at h48 ⊢; linarith
  have hC : 0 < C := by linarith
  have hg : guess C = C * (1 + exp (-2 * C) * (2 - 12 * exp (-2 * C))) := by rw [guess, if_neg (not_le.2 h2)]
  have hrf : Waves.refine C (guess C) = guess C := by rw [Waves.refine, if_neg (not_le.2 h48)]
  rw [hrf]
  obtain ⟨hX, hb⟩ := dl_large h2
  rw [← hg] at hX hb
  have hE0 := exp_pos (-2 * C)
  have hE1 := exp_nine h48
  have hgap : guess C - C ≤ C / 3500 := by
    rw [hg]
    have : exp (-2 * C) * (2 - 12 * exp (-2 * C)) ≤ 1 / 3500 := by nlinarith
    have := mul_le_mul_of_nonneg_left this hC.le
    linarith
  generalize guess C = X at *
  have hX0 : 0 < X := by linarith
  refine ⟨hX0, ?_⟩
  have ht := tanh_sub' (X + dl C X) (dl C X)
  rw [add_sub_cancel_right, tanh_dl hC hX] at ht
  have hh : |tanh (dl C X)| ≤ 0.02 := (abs_tanh_le _).trans hb
  generalize tanh (dl C X) = t at *
  have hT : C / X ≤ 1 := (div_le_one hX0).2 hX.le
  have hT0 : 0 < C / X := div_pos hC hX0
  have e : (X * tanh X - C) * (1 - C / X * t) = -t * ((X ^ 2 - C ^ 2) / X) := by
    have : (X * tanh X - C) * (1 - C / X * t) = X * (C / X - t) - C * (1 - C / X * t) := by rw [← ht]; ring
    rw [this]
    field_simp
    ring
  have hden : 0.98 ≤ |1 - C / X * t| := by
    have : |C / X * t| ≤ 0.02 := by
      rw [abs_mul, abs_of_nonneg hT0.le]
      exact (mul_le_of_le_one_left (abs_nonneg _) hT).trans hh
    have := abs_le.1 this
    exact le_trans (by linarith) (le_abs_self _)
  have hP : (X ^ 2 - C ^ 2) / X ≤ C / 1750 := by
    rw [div_le_iff₀ hX0]
    nlinarith
  have hP0 : 0 ≤ (X ^ 2 - C ^ 2) / X := div_nonneg (by nlinarith) hX0.le
  have habs : |X * tanh X - C| * |1 - C / X * t| ≤ 0.02 * (C / 1750) := by
    rw [← abs_mul, e, abs_mul, abs_neg, abs_of_nonneg hP0]
    exact mul_le_mul hh hP hP0 (by norm_num)
  have := mul_le_mul_of_nonneg_left hden (abs_nonneg (X * tanh X - C))
  norm_num at this habs ⊢
  linarith

/-- The dispersion relation without dimensions: the code solves `X tanh X = C` up to one part in ten thousand. -/
theorem solves {C : ℝ} (hC : 0 < C) :
    0 < Waves.refine C (guess C) ∧ |Waves.refine C (guess C) * tanh (Waves.refine C (guess C)) - C| ≤ C / 10000 := by
  rcases le_or_gt C 2 with h | h
  · exact solves_small hC h
  · rcases le_or_gt C 4.8 with h' | h'
    · exact solves_middle h h'
    · exact solves_large h'

/-- A number that solves the relation up to one part in ten thousand is that near to the solution. -/
theorem near {C X Y : ℝ} (hX : 0 < X) (hY : 0 < Y) (h : |X * tanh X - C| ≤ C / 10000) (hs : Y * tanh Y = C) :
    |X - Y| ≤ Y / 10000 := by
  have hmono := tanh_strictMono'
  have hty : 0 < tanh Y := by
    have := hmono hY
    rwa [tanh_zero] at this
  have hb := abs_le.1 h
  rw [abs_le]
  constructor
  · rcases le_total Y X with hxy | hxy
    · linarith
    · have h1 : tanh X ≤ tanh Y := hmono.monotone hxy
      have h2 : X * tanh X ≤ X * tanh Y := mul_le_mul_of_nonneg_left h1 hX.le
      rw [← hs] at hb
      have : (Y - Y / 10000) * tanh Y ≤ X * tanh Y := by linarith
      have := le_of_mul_le_mul_right this hty
      linarith
  · rcases le_total X Y with hxy | hxy
    · linarith
    · have h1 : tanh Y ≤ tanh X := hmono.monotone hxy
      have h2 : X * tanh Y ≤ X * tanh X := mul_le_mul_of_nonneg_left h1 hX.le
      rw [← hs] at hb
      have : X * tanh Y ≤ (Y + Y / 10000) * tanh Y := by linarith
      have := le_of_mul_le_mul_right this hty
      linarith

end MD.Waves.Disp

