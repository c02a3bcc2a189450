import Verif.Props.Schemes
import Verif.Props.Modes
import Mathlib.Analysis.Real.Pi.Bounds
import Mathlib.Analysis.SpecificLimits.Basic

/-!
# C92: which time step the explicit schemes need for a mode of vibration
-/

set_option linter.unusedSimpArgs false
set_option linter.unusedVariables false
set_option linter.unusedSectionVars false

namespace MD.Time

open Filter Topology

variable {E M : Type} [AddCommGroup E] [Module ℝ E]
variable (mc : Machine ℝ E M) (ax : Aux ℝ E)

/-! ## Specification -/

/-- The displacement `x` and the velocity `v` of a mode of vibration with the natural frequency `om`
and the damping ratio `zeta`. -/
structure Mode (f : ℝ → E → E) (x v : E →ₗ[ℝ] ℝ) (om zeta : ℝ) : Prop where
  vel : ∀ t e, x (f t e) = v e
  acc : ∀ t e, v (f t e) = -(om ^ 2) * x e - 2 * zeta * om * v e

/-- A measure of the amplitude: without damping, twice the energy per unit of mass -/
def amplitude (x v : E →ₗ[ℝ] ℝ) (om zeta : ℝ) (e : E) : ℝ :=
  v e ^ 2 + 2 * zeta * om * (x e * v e) + om ^ 2 * x e ^ 2

/-- It is zero at rest only, unless the damping is critical. -/
theorem amplitude_pos (x v : E →ₗ[ℝ] ℝ) (om zeta : ℝ) (ho : 0 < om) (hz : 0 ≤ zeta) (hz1 : zeta < 1)
    (e : E) (h : x e ≠ 0 ∨ v e ≠ 0) : 0 < amplitude x v om zeta e := by
  have e1 : amplitude x v om zeta e =
      zeta * (v e + om * x e) ^ 2 + (1 - zeta) * (v e ^ 2 + (om * x e) ^ 2) := by
    unfold amplitude; ring
  rw [e1]
  have h1 : 0 < v e ^ 2 + (om * x e) ^ 2 := by
    rcases h with h | h
    · have := mul_ne_zero ho.ne' h
      positivity
    · positivity
  have h2 := mul_pos (sub_pos.2 hz1) h1
  have h3 := mul_nonneg hz (sq_nonneg (v e + om * x e))
  linarith

/-- and bounded by the energy -/
theorem amplitude_le (x v : E →ₗ[ℝ] ℝ) (om zeta : ℝ) (hz : 0 ≤ zeta) (hz1 : zeta ≤ 1)
    (e : E) : amplitude x v om zeta e ≤ 2 * (v e ^ 2 + (om * x e) ^ 2) := by
  unfold amplitude
  nlinarith [sq_nonneg (v e - om * x e), sq_nonneg (v e + om * x e),
    mul_nonneg (sub_nonneg.2 hz1) (sq_nonneg (v e - om * x e)),
    mul_nonneg (sub_nonneg.2 hz1) (sq_nonneg (v e + om * x e)),
    mul_nonneg hz (sq_nonneg (v e - om * x e))]

/-- Factor of Euler's scheme; `th` is the time step times the natural frequency. -/
noncomputable def growth1 (zeta th : ℝ) : ℝ := 1 - 2 * zeta * th + th ^ 2

/-- Factor of RK2 -/
noncomputable def growth2 (zeta th : ℝ) : ℝ :=
  1 - 2 * zeta * th + 2 * zeta ^ 2 * th ^ 2 - zeta * th ^ 3 + th ^ 4 / 4

/-- Factor of RK4: `|1 + z + z²/2 + z³/6 + z⁴/24|²` for `z + conj z = p` and `|z|² = q` -/
noncomputable def growth4 (zeta th : ℝ) : ℝ :=
  let p := -2 * zeta * th
  let q := th ^ 2
  let a := 1 - q / 2 - p * q / 6 - (p ^ 2 - q) * q / 24
  let b := 1 + p / 2 + (p ^ 2 - q) / 6 + (p ^ 3 - 2 * p * q) / 24
  a ^ 2 + a * b * p + b ^ 2 * q

/-- Factor of the amplitude of a step of the explicit one-step schemes -/
noncomputable def growth : Scheme ℝ → ℝ → ℝ → ℝ
  | .euler => growth1
  | .rk2 => growth2
  | .rk4 => growth4
  | _ => fun _ _ => 0

/-! ## Theorems -/

section
variable {f : ℝ → E → E} (hf : RateIs mc f) (x v : E →ₗ[ℝ] ℝ) (om zeta : ℝ)
  (hm : Mode f x v om zeta)
include hf hm

/-- **C92** (one step): each step of Euler, RK2 and RK4 multiplies the amplitude of every mode by a
factor that depends only on the damping ratio and on the time step times the natural frequency. -/
theorem C92_step (sc : Scheme ℝ) (hsc : sc = .euler ∨ sc = .rk2 ∨ sc = .rk4) (h : ℝ)
    (s : Sim ℝ E M) :
    amplitude x v om zeta ((stepOf mc ax sc h s).r 0) =
      growth sc zeta (om * h) * amplitude x v om zeta (s.r 0) := by
  obtain ⟨hv, ha⟩ := hm
  rcases hsc with rfl | rfl | rfl
  · simp only [stepOf, growth, growth1]
    rw [euler_eq mc hf h s]
    simp only [amplitude, map_add, map_smul, hv, ha, smul_eq_mul]
    ring
  · simp only [stepOf, growth, growth2]
    rw [rk2_eq mc hf h s]
    simp only [amplitude, map_add, map_smul, hv, ha, smul_eq_mul]
    ring
  · simp only [stepOf, growth, growth4]
    have := rk4_eq mc hf h s
    simp only at this
    rw [this]
    simp only [amplitude, map_add, map_smul, hv, ha, smul_eq_mul]
    ring

/-- **C92** (a run): after `n` steps. -/
theorem C92_run (sc : Scheme ℝ) (hsc : sc = .euler ∨ sc = .rk2 ∨ sc = .rk4) (h : ℝ)
    (s : Sim ℝ E M) (n : ℕ) :
    amplitude x v om zeta ((run mc ax sc (List.replicate n h) s).r 0) =
      growth sc zeta (om * h) ^ n * amplitude x v om zeta (s.r 0) := by
  induction n generalizing s with
  | zero => simp [run]
  | succ n ih =>
    have := ih (stepOf mc ax sc h s)
    simp only [run, List.replicate_succ, List.foldl_cons] at this ⊢
    rw [this, C92_step mc ax hf x v om zeta hm sc hsc, pow_succ, mul_assoc]

/-- **C92** (stable): if the factor is at most one the amplitude never exceeds the first one. -/
theorem C92_stable (sc : Scheme ℝ) (hsc : sc = .euler ∨ sc = .rk2 ∨ sc = .rk4) (h : ℝ)
    (s : Sim ℝ E M) (ho : 0 < om) (hz : 0 ≤ zeta) (hz1 : zeta ≤ 1)
    (h0 : 0 ≤ growth sc zeta (om * h)) (h1 : growth sc zeta (om * h) ≤ 1) (n : ℕ) :
    amplitude x v om zeta ((run mc ax sc (List.replicate n h) s).r 0) ≤
      amplitude x v om zeta (s.r 0) := by
  rw [C92_run mc ax hf x v om zeta hm sc hsc h s n]
  have hp := pow_le_one₀ (n := n) h0 h1
  have hA : 0 ≤ amplitude x v om zeta (s.r 0) := by
    have e1 : amplitude x v om zeta (s.r 0) = zeta * (v (s.r 0) + om * x (s.r 0)) ^ 2 +
        (1 - zeta) * (v (s.r 0) ^ 2 + (om * x (s.r 0)) ^ 2) := by
      unfold amplitude; ring
    rw [e1]
    have := sub_nonneg.2 hz1
    positivity
  nlinarith

/-- **C92** (unstable): if the factor is greater than one the energy of the mode exceeds every bound,
however small the first disturbance. -/
theorem C92_unstable (sc : Scheme ℝ) (hsc : sc = .euler ∨ sc = .rk2 ∨ sc = .rk4) (h : ℝ)
    (s : Sim ℝ E M) (ho : 0 < om) (hz : 0 ≤ zeta) (hz1 : zeta < 1)
    (hs : x (s.r 0) ≠ 0 ∨ v (s.r 0) ≠ 0) (h1 : 1 < growth sc zeta (om * h)) :
    Tendsto (fun n => v ((run mc ax sc (List.replicate n h) s).r 0) ^ 2 +
      (om * x ((run mc ax sc (List.replicate n h) s).r 0)) ^ 2) atTop atTop := by
  have hA := amplitude_pos x v om zeta ho hz hz1 (s.r 0) hs
  have ht : Tendsto (fun n : ℕ => growth sc zeta (om * h) ^ n *
      (amplitude x v om zeta (s.r 0) / 2)) atTop atTop :=
    (tendsto_pow_atTop_atTop_of_one_lt h1).atTop_mul_const (by positivity)
  refine tendsto_atTop_mono (fun n => ?_) ht
  have := amplitude_le x v om zeta hz hz1.le ((run mc ax sc (List.replicate n h) s).r 0)
  rw [C92_run mc ax hf x v om zeta hm sc hsc h s n] at this
  linarith
end

/-- **C92** (without damping): Euler and RK2 are unstable for every time step. RK4 is stable exactly
up to `sqrt 8` over the natural frequency. -/
theorem C92_undamped (th : ℝ) (h : 0 < th) :
    1 < growth .euler 0 th ∧ 1 < growth .rk2 0 th ∧
      0 ≤ growth .rk4 0 th ∧ (growth .rk4 0 th ≤ 1 ↔ th ≤ Real.sqrt 8) := by
  have e4 : growth .rk4 0 th = 1 - th ^ 6 / 72 + th ^ 8 / 576 := by
    simp only [growth, growth4]; ring
  refine ⟨?_, ?_, ?_, ?_⟩
  · simp only [growth, growth1]; nlinarith [pow_pos h 2]
  · simp only [growth, growth2]; nlinarith [pow_pos h 4]
  · have : growth .rk4 0 th = (1 - th ^ 2 / 2 + th ^ 4 / 24) ^ 2 + (th * (1 - th ^ 2 / 6)) ^ 2 := by
      rw [e4]; ring
    rw [this]; positivity
  · rw [e4, Real.le_sqrt h.le (by norm_num)]
    have h6 := pow_pos h 6
    constructor
    · intro hh; by_contra hc; push Not at hc; nlinarith
    · intro hh; nlinarith

/-- **C92** (critical damping): Euler and RK2 are stable exactly up to two over the natural
frequency. -/
theorem C92_critical (th : ℝ) (h : 0 ≤ th) :
    (growth .euler 1 th ≤ 1 ↔ th ≤ 2) ∧ (growth .rk2 1 th ≤ 1 ↔ th ≤ 2) := by
  have e2 : growth2 1 th = 1 + th * (th - 2) * (1 + (1 - th) ^ 2 + 2) / 4 := by
    unfold growth2; ring
  simp only [growth, growth1]
  refine ⟨⟨fun hh => ?_, fun hh => by nlinarith⟩, ?_⟩
  · by_contra hc; push Not at hc; nlinarith
  · rw [e2]
    have hp : 0 < 1 + (1 - th) ^ 2 + 2 := by positivity
    constructor
    · intro hh; by_contra hc; push Not at hc
      have : 0 < th * (th - 2) * (1 + (1 - th) ^ 2 + 2) := by
        apply mul_pos (mul_pos (by linarith) (by linarith)) hp
      linarith
    · intro hh
      have := mul_nonneg (mul_nonneg h (sub_nonneg.2 hh)) hp.le
      nlinarith

/-- **C92** (a safe step for RK2): the cube of time step times natural frequency at most four times
the damping ratio. -/
theorem C92_rk2_safe (zeta th : ℝ) (hz1 : zeta ≤ 1) (h : 0 ≤ th) (hs : th ^ 3 ≤ 4 * zeta) :
    0 ≤ growth .rk2 zeta th ∧ growth .rk2 zeta th ≤ 1 := by
  have hz : 0 ≤ zeta := by have := pow_nonneg h 3; linarith
  simp only [growth, growth2]
  constructor
  · have : 1 - 2 * zeta * th + 2 * zeta ^ 2 * th ^ 2 - zeta * th ^ 3 + th ^ 4 / 4 =
      (1 - zeta * th) ^ 2 + (zeta * th - th ^ 2 / 2) ^ 2 := by ring
    rw [this]; positivity
  · have h1 : 1 ≤ 2 - 2 * zeta * th + th ^ 2 := by
      nlinarith [sq_nonneg (1 - th), mul_nonneg (sub_nonneg.2 hz1) h]
    have h2 : th ^ 3 ≤ 4 * (zeta * (2 - 2 * zeta * th + th ^ 2)) := by nlinarith
    nlinarith [mul_le_mul_of_nonneg_left h2 h]

/-- The time step that MoorDyn takes for the factor `cfl` and a line with the documented natural
frequency -/
theorem C92_cfl_step (EA w l cfl big : ℝ) (hE : 0 < EA) (hw : 0 < w) (hl : 0 < l) :
    2 / l * Real.sqrt (EA / w) * (MD.CFL.Obj.line (EA / l) (w * l)).cfl2dt big cfl =
      4 * Real.pi * cfl := by
  rw [MD.Mooring.LineType.C91_cfl_false EA w l cfl big hE hw hl]
  unfold MD.Mooring.LineType.manualPeriod
  have hsp : 0 < Real.sqrt (EA / w) := Real.sqrt_pos.2 (by positivity)
  field_simp
  ring

/-- **C92** is false of the default options, CFL 0.5 and the scheme RK2: for every damping ratio up to
the critical one, each step multiplies the amplitude of the documented mode by more than 200. -/
theorem C92_default_false (zeta : ℝ) (hz : 0 ≤ zeta) (hz1 : zeta ≤ 1) :
    200 < growth .rk2 zeta (4 * Real.pi * (1 / 2)) := by
  have h1 := Real.pi_gt_d2
  have h2 := Real.pi_lt_d2
  set th := 4 * Real.pi * (1 / 2) with hth
  have h3 : 6.28 < th := by rw [hth]; linarith
  have h4 : th < 6.3 := by rw [hth]; linarith
  simp only [growth, growth2]
  have e : 1 - 2 * zeta * th + 2 * zeta ^ 2 * th ^ 2 - zeta * th ^ 3 + th ^ 4 / 4 =
      (1 - th + th ^ 2 / 2) ^ 2 + (1 - zeta) * th * (2 + th ^ 2 - 2 * th * (1 + zeta)) := by ring
  rw [e]
  have h5 : (14.1 : ℝ) < 1 - th + th ^ 2 / 2 := by nlinarith
  have h6 : 0 ≤ 2 + th ^ 2 - 2 * th * (1 + zeta) := by nlinarith
  have h7 := mul_nonneg (mul_nonneg (sub_nonneg.2 hz1) (by linarith : (0 : ℝ) ≤ th)) h6
  nlinarith

/-! ## Examples -/

/-- A mass on a spring with a dashpot -/
noncomputable def oscillator (om zeta : ℝ) : Machine ℝ (ℝ × ℝ) (ℝ × ℝ) where
  update := fun _ _ e _ => e
  eval := fun m => ((m.2, -(om ^ 2) * m.1 - 2 * zeta * om * m.2), m)
  next := id

/-- Non-vacuity of the theorems on steps and runs -/
example (om zeta : ℝ) :
    RateIs (oscillator om zeta) (fun _ e => (e.2, -(om ^ 2) * e.1 - 2 * zeta * om * e.2)) ∧
    Mode (fun _ e => (e.2, -(om ^ 2) * e.1 - 2 * zeta * om * e.2)) (LinearMap.fst ℝ ℝ ℝ)
      (LinearMap.snd ℝ ℝ ℝ) om zeta :=
  ⟨fun _ _ _ _ => rfl, ⟨fun _ _ => rfl, fun _ _ => rfl⟩⟩

/-- The factors of RK2 used in `C92_stable` and `C92_unstable`: damping ratio 1/2, steps 1 and 3 over
the natural frequency. -/
example : growth .rk2 (1 / 2) 1 = 1 / 4 ∧ growth .rk2 (1 / 2) 3 = 37 / 4 := by
  simp only [growth, growth2]; norm_num

/-- Non-vacuity of `C92_rk2_safe` -/
example : ((3 / 2 : ℝ)) ^ 3 ≤ 4 * 1 := by norm_num

end MD.Time
