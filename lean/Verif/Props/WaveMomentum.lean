import Verif.Props.WaveFFT
import Verif.Props.Dispersion

/-!
# C74: pressure and acceleration of the waves on the grid

In linear theory the acceleration of the water is due to the gradient of the dynamic pressure, `ρ a = -∇p`.  The pressure held by the grid
is computed with other ratios of hyperbolic functions than velocity and acceleration, and with a wave number that solves the dispersion
relation only approximately.
-/

namespace MD.Waves

open Real

/-- The sum of the amplitudes of the accelerations of the components, at the height `z`. -/
noncomputable def shaking (cs : List WaveComp) (h z : ℝ) : ℝ := (cs.map fun c => c.omega ^ 2 * c.amp * coshRatio c.k h z).sum

/-- The sum of the amplitudes of the accelerations of the components, at the surface of deep water. -/
noncomputable def shakingTop (cs : List WaveComp) : ℝ := (cs.map fun c => c.omega ^ 2 * c.amp).sum

/-- The pressure of a wave field. -/
noncomputable def wavePressure (rho g h : ℝ) (cs : List WaveComp) (x y z t : ℝ) : ℝ :=
  rho * g * (cs.map fun c => c.amp * sin (c.arg x y t) * coshCosh c.k h z).sum

/-- A bound of the difference of two sums by the bounds of the terms. -/
theorem sum_bound (cs : List WaveComp) (f b : WaveComp → ℝ) (h : ∀ c ∈ cs, |f c| ≤ b c) : |(cs.map f).sum| ≤ (cs.map b).sum := by
  induction cs with
  | nil => simp
  | cons c cs ih =>
    simp only [List.map_cons, List.sum_cons]
    exact (abs_add_le _ _).trans (add_le_add (h c (by simp)) (ih fun d hd => h d (by simp [hd])))

theorem sum_deriv (cs : List WaveComp) (f : WaveComp → ℝ → ℝ) (f' : WaveComp → ℝ) (x : ℝ) (h : ∀ c ∈ cs, HasDerivAt (f c) (f' c) x) :
    HasDerivAt (fun x => (cs.map fun c => f c x).sum) (cs.map f').sum x := by
  induction cs with
  | nil => simpa using hasDerivAt_const x (0 : ℝ)
  | cons c cs ih =>
    simp only [List.map_cons, List.sum_cons]
    exact (h c (by simp)).add (ih fun d hd => h d (by simp [hd]))

/-- The derivative of `coshCosh` in the height. -/
noncomputable def coshCosh' (k h z : ℝ) : ℝ :=
  if k = 0 then 0
  else if 89.4 < k * h then k * exp (k * z) - k * exp (-k * (z + 2 * h))
  else k * sinh (k * (z + h)) / cosh (k * h)

theorem coshCosh_deriv (k h z : ℝ) (hk : -k * h ≤ 89.4) : HasDerivAt (fun z => coshCosh k h z) (coshCosh' k h z) z := by
  unfold coshCosh coshCosh'
  by_cases h0 : k = 0
  · simp only [if_pos h0]
    exact hasDerivAt_const z 1
  simp only [if_neg h0, if_neg (not_lt.mpr hk)]
  by_cases h1 : 89.4 < k * h
  · simp only [if_pos h1]
    have a : HasDerivAt (fun z => exp (k * z)) (exp (k * z) * (k * 1)) z := ((hasDerivAt_id z).const_mul k).exp
    have b : HasDerivAt (fun z => exp (-k * (z + 2 * h))) (exp (-k * (z + 2 * h)) * (-k * 1)) z :=
      (((hasDerivAt_id z).add_const (2 * h)).const_mul (-k)).exp
    exact (a.add b).congr_deriv (by ring)
  · simp only [if_neg h1]
    have a : HasDerivAt (fun z => cosh (k * (z + h))) (sinh (k * (z + h)) * (k * 1)) z :=
      (((hasDerivAt_id z).add_const h).const_mul k).cosh
    exact (a.div_const _).congr_deriv (by ring)

/-- A component whose frequency and wave number are those of the code. -/
def Made (g h : ℝ) (c : WaveComp) : Prop := 0 ≤ c.amp ∧ 0 ≤ c.omega ∧ c.k = waveNumber c.omega g h

theorem FillIn.field_made (f : FillIn) (hdw : 0 < f.dw) : ∀ c ∈ f.field, Made f.g f.h c := by
  intro c hc
  unfold FillIn.field at hc
  rw [List.mem_map] at hc
  obtain ⟨i, _, rfl⟩ := hc
  refine ⟨?_, ?_, rfl⟩
  · unfold FillIn.comp weight
    dsimp only
    split_ifs <;> positivity
  · unfold FillIn.comp FillIn.w
    dsimp only
    positivity

/-- What is left between the pressure and the acceleration of a component, along the direction of the waves and upwards. -/
theorem component_balance (g h : ℝ) (hg : 0 < g) (hh : 0 < h) (c : WaveComp) (hc : Made g h c) (z : ℝ) (hz : -h ≤ z) :
    |c.omega ^ 2 * coshRatio c.k h z - g * c.k * coshCosh c.k h z| ≤ c.omega ^ 2 * coshRatio c.k h z / 5000 + 2 * exp (-89.4) * c.omega ^ 2 ∧
    |g * coshCosh' c.k h z - c.omega ^ 2 * sinhRatio c.k h z| ≤ c.omega ^ 2 * coshRatio c.k h z / 5000 + 2 * exp (-89.4) * c.omega ^ 2 := by
  obtain ⟨_, hw, hk⟩ := hc
  obtain ⟨h0, hp, _, _⟩ := C61_wave_number g h hg hh c.omega
  rcases hw.eq_or_lt with e | e
  · have k0 : c.k = 0 := by rw [hk]; exact h0 e.symm
    rw [← e, k0]
    simp [coshCosh']
  have kp : 0 < c.k := by rw [hk]; exact hp e
  have hd := C61_dispersion g h hg hh c.omega e.ne'
  rw [← hk] at hd
  generalize c.k = k at *
  have hkh : 0 < k * h := mul_pos kp hh
  have w2 : 0 < c.omega ^ 2 := by positivity
  generalize c.omega ^ 2 = W at *
  unfold coshCosh coshCosh' coshRatio sinhRatio
  simp only [if_neg kp.ne']
  have hn : ¬ 89.4 < -k * h := by
    rw [neg_mul, not_lt]; norm_num at *; linarith
  by_cases hdeep : 89.4 < k * h
  · simp only [if_pos hdeep]
    have hx : (89 : ℝ) < k * h := by norm_num at hdeep; linarith
    have hE : exp (-(k * h)) ≤ exp (-89.4) := exp_le_exp.2 (by norm_num at *; linarith)
    have hq : (4000 : ℝ) < exp (k * h) := by
      have := quadratic_le_exp_of_nonneg hkh.le
      nlinarith
    have ht : 0.99995 ≤ tanh (k * h) := by
      rw [tanh_eq, le_div_iff₀ (by positivity)]
      have e1 : exp (-(k * h)) * exp (k * h) = 1 := by rw [← exp_add]; simp
      have e2 : 0 < exp (-(k * h)) := exp_pos _
      have e3 : exp (-(k * h)) < 1 / 4000 := by
        rw [lt_div_iff₀ (by norm_num)]
        nlinarith
      norm_num
      nlinarith
    have ht1 : tanh (k * h) ≤ 1 := (tanh_lt_one _).le
    have hd' := abs_le.1 hd
    have hgk : 0 < g * k := mul_pos hg kp
    have g1 : g * k - W ≤ W / 5000 := by
      norm_num at ht
      nlinarith [mul_le_mul_of_nonneg_left ht hgk.le]
    have g2 : -(W / 5000) ≤ g * k - W := by nlinarith [mul_le_mul_of_nonneg_left ht1 hgk.le]
    have hb : |g * k - W| ≤ W / 5000 := abs_le.2 ⟨g2, g1⟩
    have hs : exp (-k * (z + 2 * h)) ≤ exp (-89.4) := by
      refine le_trans (exp_le_exp.2 ?_) hE
      nlinarith
    have hs0 : 0 < exp (-k * (z + 2 * h)) := exp_pos _
    have hz0 : 0 < exp (k * z) := exp_pos _
    generalize exp (-k * (z + 2 * h)) = d at *
    generalize exp (k * z) = q at *
    generalize exp (-89.4) = E at *
    have m1 : |g * k - W| * q ≤ W * q / 5000 := by
      have := mul_le_mul_of_nonneg_right hb hz0.le
      linarith
    have m2 : g * k * d ≤ 2 * E * W := by
      have a : g * k ≤ 2 * W := by linarith
      have := mul_le_mul a hs hs0.le (by positivity)
      linarith
    have m3 : |g * k * d| ≤ 2 * E * W := by rwa [abs_of_nonneg (by positivity)]
    have m1' : |(g * k - W) * q| ≤ W * q / 5000 := by rwa [abs_mul, abs_of_pos hz0]
    constructor
    · rw [show W * q - g * k * (q + d) = -((g * k - W) * q + g * k * d) by ring, abs_neg]
      exact (abs_add_le _ _).trans (add_le_add m1' m3)
    · rw [show g * (k * q - k * d) - W * q = (g * k - W) * q - g * k * d by ring]
      exact (abs_sub _ _).trans (add_le_add m1' m3)
  · simp only [if_neg hdeep, if_neg hn]
    have sp : 0 < sinh (k * h) := sinh_pos_iff.2 hkh
    have cp : 0 < cosh (k * h) := cosh_pos _
    rw [tanh_eq_sinh_div_cosh] at hd
    have hpos : 0 ≤ cosh (k * (z + h)) / sinh (k * h) := by positivity
    have hE : 0 ≤ 2 * exp (-89.4) * W := by positivity
    have e1 : W * (cosh (k * (z + h)) / sinh (k * h)) - g * k * (cosh (k * (z + h)) / cosh (k * h)) =
        -(cosh (k * (z + h)) / sinh (k * h)) * (g * k * (sinh (k * h) / cosh (k * h)) - W) := by
      field_simp; ring
    have e2 : g * (k * sinh (k * (z + h)) / cosh (k * h)) - W * (sinh (k * (z + h)) / sinh (k * h)) =
        (sinh (k * (z + h)) / sinh (k * h)) * (g * k * (sinh (k * h) / cosh (k * h)) - W) := by
      field_simp
    rw [e1, e2, abs_mul, abs_mul, abs_neg, abs_of_nonneg hpos]
    have h2 : |sinh (k * (z + h)) / sinh (k * h)| ≤ cosh (k * (z + h)) / sinh (k * h) := by
      have : 0 ≤ k * (z + h) := mul_nonneg kp.le (by linarith)
      rw [abs_of_nonneg (div_nonneg (sinh_nonneg_iff.2 this) sp.le)]
      exact div_le_div_of_nonneg_right (sinh_lt_cosh _).le sp.le
    generalize cosh (k * (z + h)) / sinh (k * h) = q at *
    have m1 := mul_le_mul_of_nonneg_left hd hpos
    have m2 := mul_le_mul h2 hd (abs_nonneg _) hpos
    have m3 : 0 ≤ W * q := by positivity
    constructor <;> nlinarith

/-- **C74 (pressure and acceleration).** For every spectrum there are one pressure and one acceleration of which all the nodes of the grid
hold the samples.  Everywhere above the bottom the pressure has a gradient, and the acceleration times the density is opposite to it, up to
two parts in ten thousand of the sum of the amplitudes of the accelerations (and a part in `10^38` of that at the surface). -/
theorem C74_momentum (f : FillIn) (hn : 1 ≤ f.n) (hg : 0 < f.g) (hh : 0 < f.h) (hdw : 0 < f.dw) (hr : 0 < f.rho) :
    ∃ (p : ℝ → ℝ → ℝ → ℝ → ℝ) (a : ℝ → ℝ → ℝ → ℝ → R3),
      (∀ (junk : ℕ → ℂ) (x y z : ℝ), ∃ s, f.node junk x y z = some s ∧ ∀ j < 2 * f.n,
        s.pdyn j = p x y z (j * f.dt) ∧ s.acc j = a x y z (j * f.dt)) ∧
      ∀ x y z t, -f.h ≤ z → ∃ px py pz,
        HasDerivAt (fun x => p x y z t) px x ∧ HasDerivAt (fun y => p x y z t) py y ∧ HasDerivAt (fun z => p x y z t) pz z ∧
        |f.rho * (a x y z t).x + px| ≤ f.rho * (shaking f.field f.h z / 5000 + 2 * exp (-89.4) * shakingTop f.field) ∧
        |f.rho * (a x y z t).y + py| ≤ f.rho * (shaking f.field f.h z / 5000 + 2 * exp (-89.4) * shakingTop f.field) ∧
        |f.rho * (a x y z t).z + pz| ≤ f.rho * (shaking f.field f.h z / 5000 + 2 * exp (-89.4) * shakingTop f.field) := by
  have hv := f.field_valid hg hh hdw
  have hm := f.field_made hdw
  refine ⟨wavePressure f.rho f.g f.h f.field, spectrumAcc f.field f.h, ?_, ?_⟩
  · intro junk x y z
    obtain ⟨s, hs, h⟩ := C74_samples f hn hdw.ne' junk x y z
    exact ⟨s, hs, fun j hj => ⟨(h j hj).2.2.2, (h j hj).2.2.1⟩⟩
  intro x y z t hz
  generalize f.field = cs at *
  have hT : (cs.map fun c => f.rho * (c.amp * (c.omega ^ 2 * coshRatio c.k f.h z / 5000 + 2 * exp (-89.4) * c.omega ^ 2))).sum =
      f.rho * (shaking cs f.h z / 5000 + 2 * exp (-89.4) * shakingTop cs) := by
    unfold shaking shakingTop
    clear hv hm
    induction cs with
    | nil => simp
    | cons c cs ih =>
      simp only [List.map_cons, List.sum_cons, ih]
      ring
  refine ⟨f.rho * f.g * (cs.map fun c => c.amp * (cos (c.arg x y t) * -(c.k * cos c.beta)) * coshCosh c.k f.h z).sum,
    f.rho * f.g * (cs.map fun c => c.amp * (cos (c.arg x y t) * -(c.k * sin c.beta)) * coshCosh c.k f.h z).sum,
    f.rho * f.g * (cs.map fun c => c.amp * sin (c.arg x y t) * coshCosh' c.k f.h z).sum, ?_, ?_, ?_, ?_, ?_, ?_⟩
  · exact (sum_deriv cs _ _ x fun c _ => (((hasDerivAt_arg_x c x y t).sin.const_mul c.amp).mul_const _)).const_mul _
  · exact (sum_deriv cs _ _ y fun c _ => (((hasDerivAt_arg_y c x y t).sin.const_mul c.amp).mul_const _)).const_mul _
  · exact (sum_deriv cs _ _ z fun c hc => ((coshCosh_deriv c.k f.h z (hv c hc).2).const_mul _)).const_mul _
  · rw [← hT]
    have e : f.rho * (spectrumAcc cs f.h x y z t).x +
        f.rho * f.g * (cs.map fun c => c.amp * (cos (c.arg x y t) * -(c.k * cos c.beta)) * coshCosh c.k f.h z).sum =
        (cs.map fun c => f.rho * (c.amp * ((cos (c.arg x y t) * cos c.beta) *
          (c.omega ^ 2 * coshRatio c.k f.h z - f.g * c.k * coshCosh c.k f.h z)))).sum := by
      unfold spectrumAcc
      clear hv hm hT
      induction cs with
      | nil => simp
      | cons c cs ih =>
        simp only [List.map_cons, List.sum_cons] at ih ⊢
        rw [← ih]
        ring
    rw [e]
    refine sum_bound cs _ _ fun c hc => ?_
    rw [abs_mul, abs_mul, abs_of_pos hr, abs_of_nonneg (hm c hc).1, abs_mul]
    refine mul_le_mul_of_nonneg_left (mul_le_mul_of_nonneg_left ?_ (hm c hc).1) hr.le
    refine (mul_le_of_le_one_left (abs_nonneg _) ?_).trans (component_balance f.g f.h hg hh c (hm c hc) z hz).1
    rw [abs_mul]
    exact mul_le_one₀ (abs_cos_le_one _) (abs_nonneg _) (abs_cos_le_one _)
  · rw [← hT]
    have e : f.rho * (spectrumAcc cs f.h x y z t).y +
        f.rho * f.g * (cs.map fun c => c.amp * (cos (c.arg x y t) * -(c.k * sin c.beta)) * coshCosh c.k f.h z).sum =
        (cs.map fun c => f.rho * (c.amp * ((cos (c.arg x y t) * sin c.beta) *
          (c.omega ^ 2 * coshRatio c.k f.h z - f.g * c.k * coshCosh c.k f.h z)))).sum := by
      unfold spectrumAcc
      clear hv hm hT
      induction cs with
      | nil => simp
      | cons c cs ih =>
        simp only [List.map_cons, List.sum_cons] at ih ⊢
        rw [← ih]
        ring
    rw [e]
    refine sum_bound cs _ _ fun c hc => ?_
    rw [abs_mul, abs_mul, abs_of_pos hr, abs_of_nonneg (hm c hc).1, abs_mul]
    refine mul_le_mul_of_nonneg_left (mul_le_mul_of_nonneg_left ?_ (hm c hc).1) hr.le
    refine (mul_le_of_le_one_left (abs_nonneg _) ?_).trans (component_balance f.g f.h hg hh c (hm c hc) z hz).1
    rw [abs_mul]
    exact mul_le_one₀ (abs_cos_le_one _) (abs_nonneg _) (abs_sin_le_one _)
  · rw [← hT]
    have e : f.rho * (spectrumAcc cs f.h x y z t).z +
        f.rho * f.g * (cs.map fun c => c.amp * sin (c.arg x y t) * coshCosh' c.k f.h z).sum =
        (cs.map fun c => f.rho * (c.amp * (sin (c.arg x y t) *
          (f.g * coshCosh' c.k f.h z - c.omega ^ 2 * sinhRatio c.k f.h z)))).sum := by
      unfold spectrumAcc
      clear hv hm hT
      induction cs with
      | nil => simp
      | cons c cs ih =>
        simp only [List.map_cons, List.sum_cons] at ih ⊢
        rw [← ih]
        ring
    rw [e]
    refine sum_bound cs _ _ fun c hc => ?_
    rw [abs_mul, abs_mul, abs_of_pos hr, abs_of_nonneg (hm c hc).1, abs_mul]
    refine mul_le_mul_of_nonneg_left (mul_le_mul_of_nonneg_left ?_ (hm c hc).1) hr.le
    exact (mul_le_of_le_one_left (abs_nonneg _) (abs_sin_le_one _)).trans (component_balance f.g f.h hg hh c (hm c hc) z hz).2

/-- **C74 (pressure).** At the still water level the dynamic pressure is the weight of the water above it, for every spectrum, up to a part
in `10^77` of the weight of the crests of all the waves on top of each other. -/
theorem C74_surface_pressure (f : FillIn) (hn : 1 ≤ f.n) (hdw : 0 < f.dw) (hg : 0 < f.g) (hh : 0 < f.h) (hr : 0 < f.rho) (junk : ℕ → ℂ)
    (x y : ℝ) :
    ∃ s, f.node junk x y 0 = some s ∧ ∀ j < 2 * f.n,
      |s.pdyn j - f.rho * f.g * s.zeta j| ≤ f.rho * f.g * ((f.field.map fun c => exp (-178.8) * c.amp).sum) := by
  obtain ⟨s, hs, h⟩ := C74_samples f hn hdw.ne' junk x y 0
  refine ⟨s, hs, fun j hj => ?_⟩
  obtain ⟨hz, hz1, hz2, hp⟩ := h j hj
  have hv := f.field_valid hg hh hdw
  have hm := f.field_made hdw
  rw [hp, hz]
  generalize f.field = cs at *
  have hrg : 0 < f.rho * f.g := mul_pos hr hg
  unfold elevation
  have e : (cs.map fun c => c.amp * sin (c.arg x y (j * f.dt)) * coshCosh c.k f.h 0).sum - (cs.map fun c => c.amp * sin (c.arg x y (j * f.dt))).sum =
      (cs.map fun c => sin (c.arg x y (j * f.dt)) * ((coshCosh c.k f.h 0 - 1) * c.amp)).sum := by
    clear hv hm hz hz1 hz2 hp h hs
    induction cs with
    | nil => simp
    | cons c cs ih =>
      simp only [List.map_cons, List.sum_cons] at ih ⊢
      rw [← ih]
      ring
  rw [← mul_sub, e, abs_mul, abs_of_pos hrg]
  refine mul_le_mul_of_nonneg_left (sum_bound cs _ _ fun c hc => ?_) hrg.le
  rw [abs_mul]
  refine (mul_le_of_le_one_left (abs_nonneg _) (abs_sin_le_one _)).trans ?_
  rw [abs_mul, abs_of_nonneg (hm c hc).1]
  refine mul_le_mul_of_nonneg_right ?_ (hm c hc).1
  have hreg := (hv c hc).2
  unfold WaveComp.Regular at hreg
  unfold coshCosh
  by_cases h0 : c.k = 0
  · rw [if_pos h0]; simp [exp_nonneg]
  rw [if_neg h0, if_neg (not_lt.mpr hreg)]
  by_cases h1 : 89.4 < c.k * f.h
  · rw [if_pos h1]
    simp only [mul_zero, exp_zero, zero_add, add_sub_cancel_left, abs_exp]
    apply exp_le_exp.2
    norm_num at *
    linarith
  · rw [if_neg h1, zero_add, div_self (cosh_pos _).ne']
    simp [exp_nonneg]

/-- The hypotheses hold for the spectrum of three frequencies, and its accelerations are not zero. -/
example : 1 ≤ sampleFill.n ∧ 0 < sampleFill.g ∧ 0 < sampleFill.h ∧ 0 < sampleFill.dw ∧ 0 < sampleFill.rho ∧ 0 < shakingTop sampleFill.field := by
  refine ⟨by unfold sampleFill; norm_num, by unfold sampleFill; norm_num, by unfold sampleFill; norm_num, by unfold sampleFill; norm_num,
    by unfold sampleFill; norm_num, ?_⟩
  simp [shakingTop, FillIn.field, FillIn.comp, sampleFill, weight, FillIn.w, List.range_succ]
  positivity

end MD.Waves
