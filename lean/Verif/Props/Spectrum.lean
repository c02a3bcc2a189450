import Verif.Model.Spectrum
import Mathlib.Analysis.SpecialFunctions.Trigonometric.Deriv
import Mathlib.Analysis.SpecialFunctions.Trigonometric.DerivHyp
import Mathlib.Tactic.Linarith
import Mathlib.Tactic.FieldSimp
import Mathlib.Tactic.Ring
import Mathlib.Tactic.NormNum

/-!
# Property C26: linear wave theory
-/

set_option linter.unusedSimpArgs false

namespace MD.Waves

open Real

/-- A component as `SpectrumKin::setup` creates them for a depth `h` (see `C61_wave_number`):
the wave number is zero exactly if the frequency is. -/
def WaveComp.Valid (c : WaveComp) : Prop := c.k = 0 ↔ c.omega = 0

/-- The component is not in the branch for large negative wave numbers. -/
def WaveComp.Regular (c : WaveComp) (h : ℝ) : Prop := -c.k * h ≤ 89.4

theorem hasDerivAt_arg_t (c : WaveComp) (x y t : ℝ) :
    HasDerivAt (fun t => c.arg x y t) c.omega t := by
  unfold WaveComp.arg
  have := (((hasDerivAt_id t).const_mul c.omega).sub_const
    (c.k * (cos c.beta * x + sin c.beta * y))).add_const c.phase
  simpa using this

theorem hasDerivAt_arg_x (c : WaveComp) (x y t : ℝ) :
    HasDerivAt (fun x => c.arg x y t) (-(c.k * cos c.beta)) x := by
  unfold WaveComp.arg
  have := (((((hasDerivAt_id x).const_mul (cos c.beta)).add_const (sin c.beta * y)).const_mul c.k).const_sub
    (c.omega * t)).add_const c.phase
  simpa using this

theorem hasDerivAt_arg_y (c : WaveComp) (x y t : ℝ) :
    HasDerivAt (fun y => c.arg x y t) (-(c.k * sin c.beta)) y := by
  unfold WaveComp.arg
  have := (((((hasDerivAt_id y).const_mul (sin c.beta)).const_add (cos c.beta * x)).const_mul c.k).const_sub
    (c.omega * t)).add_const c.phase
  simpa using this

theorem der {f g : ℝ → ℝ} {f' g' x : ℝ} (h : HasDerivAt f f' x) (hf : ∀ y, g y = f y) (hd : g' = f') :
    HasDerivAt g g' x := by
  have : g = f := funext hf
  rw [this, hd]; exact h

/-- derivative of a sum over a list -/
theorem hasDerivAt_list_sum {A : Type} (l : List A) (f : A → ℝ → ℝ) (f' : A → ℝ) (x : ℝ)
    (h : ∀ a ∈ l, HasDerivAt (f a) (f' a) x) :
    HasDerivAt (fun x => (l.map fun a => f a x).sum) (l.map f').sum x := by
  induction l with
  | nil => simpa using hasDerivAt_const x (0 : ℝ)
  | cons a l ih =>
    simp only [List.map_cons, List.sum_cons]
    exact (h a (by simp)).add (ih fun b hb => h b (by simp [hb]))

theorem sum_congr {A : Type} (l : List A) (f g : A → ℝ) (h : ∀ a ∈ l, f a = g a) :
    (l.map f).sum = (l.map g).sum := by
  rw [List.map_congr_left h]

/-- **C26 (acceleration).** At a fixed stretched position the acceleration is the time
derivative of the velocity, for any sum of components. -/
theorem C26_acceleration (cs : List WaveComp) (h x y s t : ℝ) :
    HasDerivAt (fun t => (spectrumVel cs h x y s t).x) (spectrumAcc cs h x y s t).x t ∧
    HasDerivAt (fun t => (spectrumVel cs h x y s t).y) (spectrumAcc cs h x y s t).y t ∧
    HasDerivAt (fun t => (spectrumVel cs h x y s t).z) (spectrumAcc cs h x y s t).z t := by
  refine ⟨?_, ?_, ?_⟩ <;> unfold spectrumVel spectrumAcc <;> simp only <;>
    apply hasDerivAt_list_sum <;> intro c _
  · have := (((((hasDerivAt_arg_t c x y t).sin.const_mul c.amp).const_mul c.omega).mul_const
      (coshRatio c.k h s)).mul_const (cos c.beta))
    exact der this (fun _ => by ring) (by ring)
  · have := (((((hasDerivAt_arg_t c x y t).sin.const_mul c.amp).const_mul c.omega).mul_const
      (coshRatio c.k h s)).mul_const (sin c.beta))
    exact der this (fun _ => by ring) (by ring)
  · have := ((((hasDerivAt_arg_t c x y t).cos.const_mul c.amp).const_mul c.omega).mul_const
      (sinhRatio c.k h s))
    exact der this (fun _ => by ring) (by ring)

/-- **C26 (what is returned).** Elevation, velocity and acceleration returned for a point are
those of the sum of the components at the stretched height of the point, all with the same
depth: the acceleration is the time derivative of the velocity at that height. -/
theorem C26_returned (cs : List WaveComp) (avg bottom x y z t zeta : ℝ) (u a : R3)
    (hk : spectrumKin cs avg bottom x y z t = some (zeta, u, a)) :
    zeta = (cs.map fun c => c.amp * sin (c.omega * t -
        c.k * (cos c.beta * x + sin c.beta * y) + c.phase)).sum ∧
    ∃ s, stretch avg bottom zeta z = some s ∧ u = spectrumVel cs (-avg) x y s t ∧
      HasDerivAt (fun t => (spectrumVel cs (-avg) x y s t).x) a.x t ∧
      HasDerivAt (fun t => (spectrumVel cs (-avg) x y s t).y) a.y t ∧
      HasDerivAt (fun t => (spectrumVel cs (-avg) x y s t).z) a.z t := by
  unfold spectrumKin at hk
  cases hs : stretch avg bottom (elevation cs x y t) z with
  | none => simp [hs] at hk
  | some s =>
    simp only [hs, Option.bind_eq_bind, Option.bind_some, Option.pure_def, Option.some.injEq,
      Prod.mk.injEq] at hk
    obtain ⟨rfl, rfl, rfl⟩ := hk
    exact ⟨rfl, s, hs, rfl, C26_acceleration cs (-avg) x y s t⟩

theorem sinhRatio_surface (c : WaveComp) (h : ℝ) (hh : 0 < h) (hr : c.Regular h) :
    sinhRatio c.k h 0 = 1 := by
  unfold sinhRatio
  by_cases h0 : c.k = 0
  · rw [if_pos h0]
  · rw [if_neg h0]
    split
    · simp
    · rw [if_neg (not_lt.mpr hr), zero_add]
      apply div_self
      rw [Ne, sinh_eq_zero]
      exact mul_ne_zero h0 hh.ne'

/-- **C26 (surface).** The vertical velocity at the (stretched) surface is the time
derivative of the elevation. -/
theorem C26_surface_partial (cs : List WaveComp) (h x y t : ℝ) (hh : 0 < h) (hr : ∀ c ∈ cs, c.Regular h) :
    HasDerivAt (fun t => elevation cs x y t) (spectrumVel cs h x y 0 t).z t := by
  unfold elevation spectrumVel
  simp only
  apply hasDerivAt_list_sum
  intro c hc
  rw [sinhRatio_surface c h hh (hr c hc)]
  have := (hasDerivAt_arg_t c x y t).sin.const_mul c.amp
  exact der this (fun _ => by ring) (by ring)

/-- **C26 (bed).** At the bed the vertical velocity of every component vanishes when the
finite depth formulas are used, and for the deep water ones it is bounded by `e^(-89.4)`
times the amplitude of the velocity at the surface. -/
theorem C26_bed_partial (c : WaveComp) (h x y t : ℝ) (hv : c.Valid) (hr : c.Regular h) :
    (c.k * h ≤ 89.4 → (spectrumVel [c] h x y (-h) t).z = 0) ∧
    |(spectrumVel [c] h x y (-h) t).z| ≤ |c.omega * c.amp| * exp (-89.4) := by
  have e : (spectrumVel [c] h x y (-h) t).z =
      c.omega * (c.amp * cos (c.arg x y t)) * sinhRatio c.k h (-h) := by simp [spectrumVel]
  rw [e]
  have shallow : c.k * h ≤ 89.4 → c.omega * (c.amp * cos (c.arg x y t)) * sinhRatio c.k h (-h) = 0 := by
    intro hk
    by_cases h0 : c.k = 0
    · rw [hv.mp h0]; ring
    · unfold sinhRatio
      rw [if_neg h0, if_neg (not_lt.mpr hk), if_neg (not_lt.mpr hr)]
      simp
  refine ⟨shallow, ?_⟩
  by_cases hk : c.k * h ≤ 89.4
  · rw [shallow hk, abs_zero]; positivity
  · push Not at hk
    have h0 : c.k ≠ 0 := by rintro h0; rw [h0] at hk; norm_num at hk
    unfold sinhRatio
    rw [if_neg h0, if_pos hk, show c.omega * (c.amp * cos (c.arg x y t)) * exp (c.k * -h) =
      (c.omega * c.amp) * (cos (c.arg x y t) * exp (c.k * -h)) by ring, abs_mul]
    apply mul_le_mul_of_nonneg_left _ (abs_nonneg _)
    rw [abs_mul, abs_of_pos (exp_pos _)]
    have h1 : exp (c.k * -h) ≤ exp (-89.4) := exp_le_exp.mpr (by linarith)
    have h2 := abs_cos_le_one (c.arg x y t)
    have h3 := exp_pos (c.k * -h)
    nlinarith

theorem hasDerivAt_ratios (c : WaveComp) (h s : ℝ) (h0 : c.k ≠ 0) (hr : c.Regular h) :
    HasDerivAt (fun s => sinhRatio c.k h s) (c.k * coshRatio c.k h s) s ∧
    HasDerivAt (fun s => coshRatio c.k h s) (c.k * sinhRatio c.k h s) s := by
  unfold sinhRatio coshRatio
  simp only [if_neg h0, if_neg (not_lt.mpr hr)]
  by_cases hd : 89.4 < c.k * h
  · simp only [if_pos hd]
    have h1 : HasDerivAt (fun s => exp (c.k * s)) (c.k * exp (c.k * s)) s := by
      have := ((hasDerivAt_id s).const_mul c.k).exp
      simpa [mul_comm] using this
    exact ⟨h1, h1⟩
  · simp only [if_neg hd]
    have ha : HasDerivAt (fun s => c.k * (s + h)) c.k s := by
      simpa using ((hasDerivAt_id s).add_const h).const_mul c.k
    constructor
    · have := ha.sinh.div_const (sinh (c.k * h))
      exact der this (fun _ => by ring) (by ring)
    · have := ha.cosh.div_const (sinh (c.k * h))
      exact der this (fun _ => by ring) (by ring)

/-- **C26 (incompressible and irrotational).** The velocity field, as a function of the
stretched position, has the partial derivatives shown, with no divergence and with a
symmetric gradient. -/
theorem C26_divergence_free_partial (cs : List WaveComp) (h x y s t : ℝ) (hv : ∀ c ∈ cs, c.Valid)
    (hr : ∀ c ∈ cs, c.Regular h) :
    ∃ uxx uyy uzz uxz uzx uyz uzy uxy uyx,
      HasDerivAt (fun x => (spectrumVel cs h x y s t).x) uxx x ∧
      HasDerivAt (fun y => (spectrumVel cs h x y s t).y) uyy y ∧
      HasDerivAt (fun s => (spectrumVel cs h x y s t).z) uzz s ∧
      HasDerivAt (fun s => (spectrumVel cs h x y s t).x) uxz s ∧
      HasDerivAt (fun x => (spectrumVel cs h x y s t).z) uzx x ∧
      HasDerivAt (fun s => (spectrumVel cs h x y s t).y) uyz s ∧
      HasDerivAt (fun y => (spectrumVel cs h x y s t).z) uzy y ∧
      HasDerivAt (fun y => (spectrumVel cs h x y s t).x) uxy y ∧
      HasDerivAt (fun x => (spectrumVel cs h x y s t).y) uyx x ∧
      uxx + uyy + uzz = 0 ∧ uxz = uzx ∧ uyz = uzy ∧ uxy = uyx := by
  have hw : ∀ c ∈ cs, c.k = 0 → c.omega = 0 := fun c hc => (hv c hc).mp
  -- the derivatives of the two ratios, times the frequency
  have hS : ∀ c ∈ cs, HasDerivAt (fun s => c.omega * sinhRatio c.k h s) (c.omega * (c.k * coshRatio c.k h s)) s := by
    intro c hc
    by_cases h0 : c.k = 0
    · simpa [hw c hc h0] using hasDerivAt_const s (0 : ℝ)
    · exact (hasDerivAt_ratios c h s h0 (hr c hc)).1.const_mul _
  have hC : ∀ c ∈ cs, HasDerivAt (fun s => c.omega * coshRatio c.k h s) (c.omega * (c.k * sinhRatio c.k h s)) s := by
    intro c hc
    by_cases h0 : c.k = 0
    · simpa [hw c hc h0] using hasDerivAt_const s (0 : ℝ)
    · exact (hasDerivAt_ratios c h s h0 (hr c hc)).2.const_mul _
  set S := fun c : WaveComp => sinhRatio c.k h s with hSd
  set C := fun c : WaveComp => coshRatio c.k h s with hCd
  set θ := fun c : WaveComp => c.arg x y t with hθ
  refine ⟨(cs.map fun c => -(c.omega * c.amp * c.k * cos (θ c) * C c * cos c.beta ^ 2)).sum,
    (cs.map fun c => -(c.omega * c.amp * c.k * cos (θ c) * C c * sin c.beta ^ 2)).sum,
    (cs.map fun c => c.omega * c.amp * c.k * cos (θ c) * C c).sum,
    (cs.map fun c => c.omega * c.amp * c.k * sin (θ c) * S c * cos c.beta).sum,
    (cs.map fun c => c.omega * c.amp * c.k * sin (θ c) * S c * cos c.beta).sum,
    (cs.map fun c => c.omega * c.amp * c.k * sin (θ c) * S c * sin c.beta).sum,
    (cs.map fun c => c.omega * c.amp * c.k * sin (θ c) * S c * sin c.beta).sum,
    (cs.map fun c => -(c.omega * c.amp * c.k * cos (θ c) * C c * cos c.beta * sin c.beta)).sum,
    (cs.map fun c => -(c.omega * c.amp * c.k * cos (θ c) * C c * cos c.beta * sin c.beta)).sum,
    ?_, ?_, ?_, ?_, ?_, ?_, ?_, ?_, ?_, ?_, rfl, rfl, rfl⟩
  · unfold spectrumVel; simp only
    apply hasDerivAt_list_sum; intro c _
    have := ((((hasDerivAt_arg_x c x y t).sin.const_mul c.amp).const_mul c.omega).mul_const
      (coshRatio c.k h s)).mul_const (cos c.beta)
    exact der this (fun _ => by ring) (by simp only [hCd, hθ]; ring)
  · unfold spectrumVel; simp only
    apply hasDerivAt_list_sum; intro c _
    have := ((((hasDerivAt_arg_y c x y t).sin.const_mul c.amp).const_mul c.omega).mul_const
      (coshRatio c.k h s)).mul_const (sin c.beta)
    exact der this (fun _ => by ring) (by simp only [hCd, hθ]; ring)
  · unfold spectrumVel; simp only
    apply hasDerivAt_list_sum; intro c hc
    have := (hS c hc).const_mul (c.amp * cos (c.arg x y t))
    exact der this (fun _ => by ring) (by simp only [hCd, hθ]; ring)
  · unfold spectrumVel; simp only
    apply hasDerivAt_list_sum; intro c hc
    have := ((hC c hc).const_mul (c.amp * sin (c.arg x y t))).mul_const (cos c.beta)
    exact der this (fun _ => by ring) (by simp only [hSd, hθ]; ring)
  · unfold spectrumVel; simp only
    apply hasDerivAt_list_sum; intro c _
    have := (((hasDerivAt_arg_x c x y t).cos.const_mul c.amp).const_mul c.omega).mul_const
      (sinhRatio c.k h s)
    exact der this (fun _ => by ring) (by simp only [hSd, hθ]; ring)
  · unfold spectrumVel; simp only
    apply hasDerivAt_list_sum; intro c hc
    have := ((hC c hc).const_mul (c.amp * sin (c.arg x y t))).mul_const (sin c.beta)
    exact der this (fun _ => by ring) (by simp only [hSd, hθ]; ring)
  · unfold spectrumVel; simp only
    apply hasDerivAt_list_sum; intro c _
    have := (((hasDerivAt_arg_y c x y t).cos.const_mul c.amp).const_mul c.omega).mul_const
      (sinhRatio c.k h s)
    exact der this (fun _ => by ring) (by simp only [hSd, hθ]; ring)
  · unfold spectrumVel; simp only
    apply hasDerivAt_list_sum; intro c _
    have := ((((hasDerivAt_arg_y c x y t).sin.const_mul c.amp).const_mul c.omega).mul_const
      (coshRatio c.k h s)).mul_const (cos c.beta)
    exact der this (fun _ => by ring) (by simp only [hCd, hθ]; ring)
  · unfold spectrumVel; simp only
    apply hasDerivAt_list_sum; intro c _
    have := ((((hasDerivAt_arg_x c x y t).sin.const_mul c.amp).const_mul c.omega).mul_const
      (coshRatio c.k h s)).mul_const (sin c.beta)
    exact der this (fun _ => by ring) (by simp only [hCd, hθ]; ring)
  · rw [← List.sum_map_add, ← List.sum_map_add]
    apply List.sum_eq_zero
    intro v hv'
    obtain ⟨c, _, rfl⟩ := List.mem_map.mp hv'
    have := sin_sq_add_cos_sq c.beta
    linear_combination (-(c.omega * c.amp * c.k * cos (θ c) * C c)) * this

/-- **C26, large negative wave numbers: false.** For such a component the vertical velocity
at the surface is the opposite of the time derivative of the elevation. -/
theorem C26_negative_deep_false (c : WaveComp) (h x y t : ℝ) (hk : 89.4 < -c.k * h) :
    HasDerivAt (fun t => elevation [c] x y t) (-(spectrumVel [c] h x y 0 t).z) t := by
  have h0 : c.k ≠ 0 := by rintro h0; rw [h0] at hk; norm_num at hk
  have hn : ¬ (89.4 < c.k * h) := by
    intro h1
    have : (0 : ℝ) < 89.4 := by norm_num
    linarith
  have : (spectrumVel [c] h x y 0 t).z = -(c.omega * (c.amp * cos (c.arg x y t))) := by
    simp only [spectrumVel, sinhRatio, if_neg h0, if_neg hn, if_pos hk, List.map_cons, List.map_nil,
      List.sum_cons, List.sum_nil, mul_zero, exp_zero]
    ring
  rw [this, neg_neg]
  unfold elevation
  simp only [List.map_cons, List.map_nil, List.sum_cons, List.sum_nil, add_zero]
  have := (hasDerivAt_arg_t c x y t).sin.const_mul c.amp
  exact der this (fun _ => by ring) (by ring)

/-- the vertical velocity returned for the point of height `z` -/
noncomputable def uzAt (cs : List WaveComp) (avg bottom x y z t : ℝ) : ℝ :=
  ((spectrumKin cs avg bottom x y z t).map fun r => r.2.1.z).getD 0

/-- the vertical acceleration returned for the point of height `z` -/
noncomputable def azAt (cs : List WaveComp) (avg bottom x y z t : ℝ) : ℝ :=
  ((spectrumKin cs avg bottom x y z t).map fun r => r.2.2.z).getD 0

/-- **C26, false as stated because of the stretching.** For every progressive wave in water
of finite depth, at the instants at which the surface crosses the mean level at a place, the
vertical acceleration returned for any point of the column there is zero, while the time
derivative of the vertical velocity returned for it is not. -/
theorem C26_stretching_false (c : WaveComp) (h z : ℝ) (hh : 0 < h) (hA : 0 < c.amp) (hw : 0 < c.omega)
    (hk : 0 < c.k) (hkh : c.k * h ≤ 89.4) (hph : c.phase = 0) (hz : -h < z) (hz0 : z < 0) :
    azAt [c] (-h) (-h) 0 0 z 0 = 0 ∧
    ∃ d, d ≠ 0 ∧ HasDerivAt (fun t => uzAt [c] (-h) (-h) 0 0 z t) d 0 := by
  have harg : c.arg 0 0 0 = 0 := by simp [WaveComp.arg, hph]
  have hel0 : elevation [c] 0 0 0 = 0 := by simp [elevation, harg]
  -- elevation and its derivative
  have hel : HasDerivAt (fun t => elevation [c] 0 0 t) (c.amp * c.omega) 0 := by
    unfold elevation
    simp only [List.map_cons, List.map_nil, List.sum_cons, List.sum_nil, add_zero]
    have := (hasDerivAt_arg_t c 0 0 0).sin.const_mul c.amp
    exact der this (fun _ => by ring) (by rw [harg, cos_zero]; ring)
  -- the stretched coordinate
  let st : ℝ → ℝ := fun t => (-(-h) * (z - -h)) / (elevation [c] 0 0 t - -h) + -h
  have hst0 : st 0 = z := by simp only [st, hel0, zero_sub, neg_neg, sub_neg_eq_add]; field_simp; ring
  have hstd : HasDerivAt st (-((z + h) * (c.amp * c.omega) / h)) 0 := by
    have hne : elevation [c] 0 0 0 - -h ≠ 0 := by rw [hel0]; simpa using hh.ne'
    have := ((hasDerivAt_const (0 : ℝ) (-(-h) * (z - -h))).div (hel.sub_const (-h)) hne).add_const (-h)
    exact der this (fun _ => rfl) (by rw [hel0]; simp only [zero_sub, neg_neg, sub_neg_eq_add]; field_simp; ring)
  have hcont : ContinuousAt st 0 := hstd.continuousAt
  have hcontE : ContinuousAt (fun t => elevation [c] 0 0 t) 0 := hel.continuousAt
  have ev : ∀ᶠ t in nhds (0 : ℝ), stretch (-h) (-h) (elevation [c] 0 0 t) z = some (st t) := by
    have e1 : ∀ᶠ t in nhds (0 : ℝ), st t < 0 := by
      apply hcont.eventually_lt continuousAt_const; rw [hst0]; exact hz0
    have e2 : ∀ᶠ t in nhds (0 : ℝ), -h < elevation [c] 0 0 t := by
      apply continuousAt_const.eventually_lt hcontE; rw [hel0]; linarith
    filter_upwards [e1, e2] with t h1 h2
    unfold stretch
    simp only
    rw [if_neg (by intro h3; linarith), if_neg (not_lt.mpr (le_of_lt h1))]
  have hreg : c.Regular h := by
    unfold WaveComp.Regular
    have : 0 < c.k * h := mul_pos hk hh
    norm_num; linarith
  constructor
  · unfold azAt spectrumKin
    have := ev.self_of_nhds
    simp only [Option.bind_eq_bind, this, Option.bind_some, Option.pure_def, Option.map_some, Option.getD_some]
    simp [spectrumAcc, harg]
  · have hv : HasDerivAt (fun t => c.omega * (c.amp * cos (c.arg 0 0 t)) * sinhRatio c.k h (st t))
        (c.omega * c.amp * (c.k * coshRatio c.k h z * -((z + h) * (c.amp * c.omega) / h))) 0 := by
      have h1 := (((hasDerivAt_arg_t c 0 0 0).cos.const_mul c.amp).const_mul c.omega)
      have h2 : HasDerivAt (fun t => sinhRatio c.k h (st t))
          (c.k * coshRatio c.k h z * -((z + h) * (c.amp * c.omega) / h)) 0 := by
        have := (hasDerivAt_ratios c h (st 0) hk.ne' hreg).1
        rw [hst0] at this
        exact HasDerivAt.comp (0 : ℝ) (h₂ := fun s => sinhRatio c.k h s) (by rw [hst0]; exact this) hstd
      have := h1.mul h2
      exact der this (fun _ => rfl) (by rw [harg]; simp)
    refine ⟨_, ?_, hv.congr_of_eventuallyEq ?_⟩
    · have hC : 0 < coshRatio c.k h z := by
        unfold coshRatio
        rw [if_neg hk.ne', if_neg (not_lt.mpr hkh), if_neg (not_lt.mpr hreg)]
        apply div_pos (cosh_pos _)
        rw [sinh_pos_iff]; positivity
      have : 0 < z + h := by linarith
      apply ne_of_lt
      have : 0 < c.omega * c.amp * (c.k * coshRatio c.k h z * ((z + h) * (c.amp * c.omega) / h)) := by
        positivity
      rw [mul_neg, mul_neg]
      linarith
    · filter_upwards [ev] with t ht
      unfold uzAt spectrumKin
      simp only [Option.bind_eq_bind, ht, Option.bind_some, Option.pure_def, Option.map_some, Option.getD_some]
      simp [spectrumVel]

/-- a wave of 1 m, wave number 1 rad/m in 10 m of water -/
theorem coshRatio_neg (k h s : ℝ) (hk : k ≠ 0) :
    coshRatio (-k) h s = -coshRatio k h s := by
  have hk' : -k ≠ 0 := neg_ne_zero.mpr hk
  unfold coshRatio
  rw [if_neg hk, if_neg hk', neg_neg]
  by_cases h1 : 89.4 < k * h
  · have h2 : ¬ 89.4 < -k * h := by
      intro h3
      have : (0 : ℝ) < 89.4 := by norm_num
      linarith
    rw [if_neg h2, if_pos h1, if_pos h1]
  · rw [if_neg h1]
    by_cases h2 : 89.4 < -k * h
    · rw [if_pos h2, if_neg h1, if_pos h2, neg_neg]
    · rw [if_neg h2, if_neg h2, if_neg h1, neg_mul, neg_mul, cosh_neg, sinh_neg, div_neg]

theorem sinhRatio_neg (k h s : ℝ) (hk : |k| * h ≤ 89.4) (hh : 0 < h) :
    sinhRatio (-k) h s = sinhRatio k h s := by
  have hp : k * h ≤ 89.4 := le_trans (mul_le_mul_of_nonneg_right (le_abs_self k) hh.le) hk
  have hn : -k * h ≤ 89.4 := le_trans (mul_le_mul_of_nonneg_right (neg_le_abs k) hh.le) hk
  unfold sinhRatio
  rw [neg_neg, if_neg (not_lt.mpr hp), if_neg (not_lt.mpr hn), if_neg (not_lt.mpr hn),
    if_neg (not_lt.mpr hp), neg_mul, neg_mul, sinh_neg, sinh_neg, neg_div_neg_eq]
  simp only [neg_eq_zero]

/-- **C26 (reversal).** A component with the sign of its wave number changed is the component
travelling the other way: the elevation and horizontal velocity and acceleration are those of the
component with opposite heading, in any depth. The vertical ones too, except in deep water. -/
theorem C26_reversal (om amp ph k be h x y s t : ℝ) (hk : k ≠ 0) (hh : 0 < h) :
    let c : WaveComp := { omega := om, k := -k, beta := be, phase := ph, amp := amp }
    let c' : WaveComp := { omega := om, k := k, beta := be + π, phase := ph, amp := amp }
    elevation [c] x y t = elevation [c'] x y t ∧
    (spectrumVel [c] h x y s t).x = (spectrumVel [c'] h x y s t).x ∧
    (spectrumVel [c] h x y s t).y = (spectrumVel [c'] h x y s t).y ∧
    (spectrumAcc [c] h x y s t).x = (spectrumAcc [c'] h x y s t).x ∧
    (spectrumAcc [c] h x y s t).y = (spectrumAcc [c'] h x y s t).y ∧
    (|k| * h ≤ 89.4 → (spectrumVel [c] h x y s t).z = (spectrumVel [c'] h x y s t).z ∧
      (spectrumAcc [c] h x y s t).z = (spectrumAcc [c'] h x y s t).z) := by
  intro c c'
  have ha : c.arg x y t = c'.arg x y t := by
    simp only [c, c', WaveComp.arg, cos_add_pi, sin_add_pi]
    ring
  have hc : coshRatio c.k h s = -coshRatio c'.k h s := coshRatio_neg k h s hk
  refine ⟨?_, ?_, ?_, ?_, ?_, ?_⟩
  · simp [elevation, ha, c, c']
  · simp only [spectrumVel, List.map_cons, List.map_nil, List.sum_cons, List.sum_nil, ha, hc]
    simp only [c, c', cos_add_pi]
    ring
  · simp only [spectrumVel, List.map_cons, List.map_nil, List.sum_cons, List.sum_nil, ha, hc]
    simp only [c, c', sin_add_pi]
    ring
  · simp only [spectrumAcc, List.map_cons, List.map_nil, List.sum_cons, List.sum_nil, ha, hc]
    simp only [c, c', cos_add_pi]
    ring
  · simp only [spectrumAcc, List.map_cons, List.map_nil, List.sum_cons, List.sum_nil, ha, hc]
    simp only [c, c', sin_add_pi]
    ring
  · intro hs
    have hz : sinhRatio c.k h s = sinhRatio c'.k h s := sinhRatio_neg k h s hs hh
    constructor
    · simp only [spectrumVel, List.map_cons, List.map_nil, List.sum_cons, List.sum_nil, ha, hz]
      rfl
    · simp only [spectrumAcc, List.map_cons, List.map_nil, List.sum_cons, List.sum_nil, ha, hz]
      rfl

example : (⟨1, 3, 0, 0, 1⟩ : WaveComp).Valid ∧ (⟨1, 3, 0, 0, 1⟩ : WaveComp).Regular 10 := by
  constructor
  · simp [WaveComp.Valid]
  · norm_num [WaveComp.Regular]

example : azAt [⟨1, 3, 0, 0, 1⟩] (-10) (-10) 0 0 (-5) 0 = 0 :=
  (C26_stretching_false ⟨1, 3, 0, 0, 1⟩ 10 (-5) (by norm_num) (by norm_num) (by norm_num) (by norm_num)
    (by norm_num) rfl (by norm_num) (by norm_num)).1

end MD.Waves
