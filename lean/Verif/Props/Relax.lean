import Verif.Model.Relax
import Verif.Props.Schemes
import Mathlib.Analysis.SpecificLimits.Basic
import Mathlib.Analysis.Complex.Basic
import Mathlib.Analysis.Complex.ExponentialBounds
import Mathlib.Topology.MetricSpace.Contracting
import Mathlib.Analysis.SpecialFunctions.Trigonometric.DerivHyp

/-!
# C89: the substeps of the implicit schemes
-/

set_option linter.unusedSimpArgs false
set_option linter.unusedSectionVars false
set_option linter.unusedVariables false

namespace MD.Time

open Filter Topology

section
variable {E M : Type} [NormedAddCommGroup E] [NormedSpace ℝ E]
variable (mc : Machine ℝ E M) (ax : Aux ℝ E)

/-- The iterations that the manual describes (docs/tschemes.rst:264-280): the new derivative `g d` is
mixed with the last one, `1 - f` being `ρ`. -/
noncomputable def substeps (g : E → E) (ρ : ℝ) : ℕ → E → E
  | 0, d => d
  | n + 1, d => (1 - ρ) • g (substeps g ρ n d) + ρ • substeps g ρ n d

theorem relaxEuler_eq (N i : ℕ) : relaxEuler N i = 9 / 10 * (1 - 1 / (N : ℝ)) := by
  unfold relaxEuler relaxOf
  simp

theorem imp_loop {f : ℝ → E → E} (hf : RateIs mc f) (hr : ax.relax = relaxEuler) (iters : ℕ)
    (fac dt : ℝ) (s : Sim ℝ E M) (hd : s.rd 1 = s.rd 0) (n : ℕ) (hn : n + 1 ≤ iters) :
    let s' := (List.range n).foldl (fun s i => impBody mc ax iters fac dt i s) s
    let d := substeps (fun d => f s.t (s.r 0 + (fac * dt) • d)) (9 / 10 * (1 - 1 / (iters : ℝ))) n
      (s.rd 0)
    s'.r 0 = s.r 0 ∧ s'.t = s.t ∧ s'.rd 0 = d ∧ s'.rd 1 = d := by
  induction n with
  | zero => exact ⟨rfl, rfl, rfl, hd⟩
  | succ n ih =>
    obtain ⟨h1, h2, h3, h4⟩ := ih (by omega)
    intro s' d
    have hs' : s' = impBody mc ax iters fac dt n
        ((List.range n).foldl (fun s i => impBody mc ax iters fac dt i s) s) := by
      change List.foldl _ _ _ = _
      rw [List.range_succ, List.foldl_append]
      rfl
    generalize (List.range n).foldl (fun s i => impBody mc ax iters fac dt i s) s = u at *
    have hd' : d = (1 - 9 / 10 * (1 - 1 / (iters : ℝ))) • f u.t (u.r 0 + (fac * dt) • u.rd 0)
        + (9 / 10 * (1 - 1 / (iters : ℝ))) • u.rd 1 := by
      rw [h1, h2, h3, h4]
      rfl
    rw [hs', hd']
    unfold impBody
    simp only
    rw [if_pos (by omega), hr, relaxEuler_eq]
    refine ⟨?_, ?_, ?_, ?_⟩ <;>
      simp [upd, clc, setR, setRd, Function.update_apply, hf _ _ _ _, mix, h1, h2]

/-- One step of `BEuler` and `Midpoint` -/
theorem impEuler_eq {f : ℝ → E → E} (hf : RateIs mc f) (hr : ax.relax = relaxEuler) (n : ℕ)
    (fac dt : ℝ) (s : Sim ℝ E M) :
    (impEuler mc ax (n + 1) fac dt s).r 0 = s.r 0 + dt • f (s.t + fac * dt) (s.r 0 + (fac * dt) •
      substeps (fun d => f (s.t + fac * dt) (s.r 0 + (fac * dt) • d))
        (9 / 10 * (1 - 1 / ((n + 1 : ℕ) : ℝ))) n (s.rd 0)) := by
  set s0 := setRd 1 ((addT (fac * dt) s).rd 0) (addT (fac * dt) s) with hs0
  have h := imp_loop mc ax hf hr (n + 1) fac dt s0
    (by simp [hs0, setRd, addT, Function.update_apply]) n le_rfl
  have e1 : s0.r 0 = s.r 0 := rfl
  have e2 : s0.t = s.t + fac * dt := rfl
  have e3 : s0.rd 0 = s.rd 0 := by simp [hs0, setRd, addT, Function.update_apply]
  rw [e1, e2, e3] at h
  simp only at h
  obtain ⟨h1, h2, h3, h4⟩ := h
  unfold impEuler
  simp only
  rw [← hs0, List.range_succ, List.foldl_append]
  simp only [List.foldl_cons, List.foldl_nil]
  generalize (List.range n).foldl (fun s i => impBody mc ax (n + 1) fac dt i s) s0 = u at *
  unfold impBody
  simp only
  rw [if_neg (by omega)]
  simp [upd, clc, setR, setRd, addT, fin, Function.update_apply, hf _ _ _ _, h1, h2, h3]

theorem substeps_error {g : E → E} {k ρ : ℝ} (hk : 0 ≤ k) (h0 : 0 ≤ ρ) (h1 : ρ ≤ 1) {d : E}
    (hd : g d = d) (hg : ∀ x, ‖g x - d‖ ≤ k * ‖x - d‖) (n : ℕ) (x : E) :
    ‖substeps g ρ n x - d‖ ≤ (ρ + (1 - ρ) * k) ^ n * ‖x - d‖ := by
  induction n with
  | zero => simp [substeps]
  | succ n ih =>
    have hq : 0 ≤ ρ + (1 - ρ) * k := by
      have := mul_nonneg (sub_nonneg.2 h1) hk
      linarith
    have e : substeps g ρ (n + 1) x - d =
        (1 - ρ) • (g (substeps g ρ n x) - d) + ρ • (substeps g ρ n x - d) := by
      simp only [substeps]
      module
    rw [e]
    refine (norm_add_le _ _).trans ?_
    rw [norm_smul, norm_smul, Real.norm_of_nonneg h0, Real.norm_of_nonneg (sub_nonneg.2 h1)]
    have hg' := hg (substeps g ρ n x)
    have h2 := mul_le_mul_of_nonneg_left hg' (sub_nonneg.2 h1)
    have h3 := mul_le_mul_of_nonneg_left ih hq
    rw [pow_succ, mul_comm ((ρ + (1 - ρ) * k) ^ n), mul_assoc]
    nlinarith

theorem relax_range (n : ℕ) :
    0 ≤ 9 / 10 * (1 - 1 / ((n + 1 : ℕ) : ℝ)) ∧ 9 / 10 * (1 - 1 / ((n + 1 : ℕ) : ℝ)) ≤ 9 / 10 := by
  have h : (0 : ℝ) < ((n + 1 : ℕ) : ℝ) := by positivity
  have h1 : (1 : ℝ) ≤ ((n + 1 : ℕ) : ℝ) := by exact_mod_cast Nat.succ_le_succ (Nat.zero_le n)
  have h2 : 1 / ((n + 1 : ℕ) : ℝ) ≤ 1 := (div_le_one h).2 h1
  have h3 : 0 ≤ 1 / ((n + 1 : ℕ) : ℝ) := by positivity
  constructor <;> nlinarith

section
variable {f : ℝ → E → E} (hf : RateIs mc f) (hr : ax.relax = relaxEuler) (fac dt : ℝ)
  (hfac : 0 ≤ fac) (hdt : 0 ≤ dt) (s : Sim ℝ E M) (L : ℝ) (hL : 0 ≤ L)
  (hlip : ∀ x y, ‖f (s.t + fac * dt) x - f (s.t + fac * dt) y‖ ≤ L * ‖x - y‖)
  (hk : L * (fac * dt) < 1)
include hfac hdt hL hlip hk

/-- **C89** (the equation): for a Lipschitz rate and a small enough time step the implicit equation
has one solution. -/
theorem C89_solution [CompleteSpace E] :
    ∃! d, d = f (s.t + fac * dt) (s.r 0 + (fac * dt) • d) := by
  have hfd : 0 ≤ fac * dt := mul_nonneg hfac hdt
  set g : E → E := fun d => f (s.t + fac * dt) (s.r 0 + (fac * dt) • d) with hg
  have hk0 : 0 ≤ L * (fac * dt) := mul_nonneg hL hfd
  have hc : ContractingWith ⟨L * (fac * dt), hk0⟩ g := by
    refine ⟨by exact_mod_cast hk, LipschitzWith.of_dist_le_mul fun x y => ?_⟩
    rw [dist_eq_norm, dist_eq_norm]
    refine (hlip _ _).trans ?_
    rw [add_sub_add_left_eq_sub, ← smul_sub, norm_smul, Real.norm_of_nonneg hfd, ← mul_assoc]
    rfl
  refine ⟨hc.fixedPoint g, hc.fixedPoint_isFixedPt.symm, ?_⟩
  intro y hy
  exact hc.fixedPoint_unique hy.symm

include hf hr

/-- **C89** (substeps): each further substep brings the result of `BEuler` (`fac` = 1) and
`Midpoint` (`fac` = 1/2) nearer to the solution of the implicit equation. -/
theorem C89_substeps_partial (d : E) (hd : d = f (s.t + fac * dt) (s.r 0 + (fac * dt) • d))
    (n : ℕ) :
    ‖(stepOf mc ax (.impEuler (n + 1) fac) dt s).r 0 - (s.r 0 + dt • d)‖ ≤
      dt * (L * (fac * dt)) * (9 / 10 + L * (fac * dt) / 10) ^ n * ‖s.rd 0 - d‖ := by
  have hfd : 0 ≤ fac * dt := mul_nonneg hfac hdt
  have hk0 : 0 ≤ L * (fac * dt) := mul_nonneg hL hfd
  set k := L * (fac * dt) with hkdef
  simp only [stepOf]
  rw [impEuler_eq mc ax hf hr]
  set g : E → E := fun d => f (s.t + fac * dt) (s.r 0 + (fac * dt) • d) with hg
  obtain ⟨hρ0, hρ1⟩ := relax_range n
  set ρ := 9 / 10 * (1 - 1 / ((n + 1 : ℕ) : ℝ)) with hρ
  have hgl : ∀ x, ‖g x - d‖ ≤ k * ‖x - d‖ := by
    intro x
    have e : g x - d = f (s.t + fac * dt) (s.r 0 + (fac * dt) • x)
        - f (s.t + fac * dt) (s.r 0 + (fac * dt) • d) := by rw [← hd]
    rw [e]
    refine (hlip _ _).trans ?_
    rw [add_sub_add_left_eq_sub, ← smul_sub, norm_smul, Real.norm_of_nonneg hfd, ← mul_assoc]
  have h1 := substeps_error hk0 hρ0 (by linarith) hd.symm hgl n (s.rd 0)
  have h2 := hgl (substeps g ρ n (s.rd 0))
  have h3 : (ρ + (1 - ρ) * k) ^ n ≤ (9 / 10 + k / 10) ^ n := by
    apply pow_le_pow_left₀
    · have := mul_nonneg (by linarith : 0 ≤ 1 - ρ) hk0
      linarith
    · nlinarith
  have e : s.r 0 + dt • g (substeps g ρ n (s.rd 0)) - (s.r 0 + dt • d) =
      dt • (g (substeps g ρ n (s.rd 0)) - d) := by module
  change ‖s.r 0 + dt • g (substeps g ρ n (s.rd 0)) - (s.r 0 + dt • d)‖ ≤ _
  rw [e, norm_smul, Real.norm_of_nonneg hdt, mul_assoc, mul_assoc]
  apply mul_le_mul_of_nonneg_left _ hdt
  refine h2.trans (mul_le_mul_of_nonneg_left (h1.trans ?_) hk0)
  exact mul_le_mul_of_nonneg_right h3 (norm_nonneg _)

/-- **C89** (limit): with more and more substeps the result is that of the implicit scheme. -/
theorem C89_limit_partial (d : E) (hd : d = f (s.t + fac * dt) (s.r 0 + (fac * dt) • d)) :
    Tendsto (fun n : ℕ => (stepOf mc ax (.impEuler (n + 1) fac) dt s).r 0) atTop
      (𝓝 (s.r 0 + dt • d)) := by
  have hfd : 0 ≤ fac * dt := mul_nonneg hfac hdt
  have hk0 : 0 ≤ L * (fac * dt) := mul_nonneg hL hfd
  rw [tendsto_iff_norm_sub_tendsto_zero]
  refine squeeze_zero (fun _ => norm_nonneg _)
    (fun n => C89_substeps_partial mc ax hf hr fac dt hfac hdt s L hL hlip hk d hd n) ?_
  have h := tendsto_pow_atTop_nhds_zero_of_lt_one (r := 9 / 10 + L * (fac * dt) / 10)
    (by linarith) (by linarith)
  have h' := (h.const_mul (dt * (L * (fac * dt)))).mul_const ‖s.rd 0 - d‖
  simpa using h'
end
end

/-! ## Large time steps -/

theorem substeps_linear (c κ ρ d : ℂ) (r : ℝ) (hρ : ρ = r) (g : ℂ → ℂ) (hg : ∀ x, g x = c + κ * x)
    (hd : g d = d) (n : ℕ) (x : ℂ) :
    substeps g r n x - d = (ρ + (1 - ρ) * κ) ^ n * (x - d) := by
  induction n with
  | zero => simp [substeps]
  | succ n ih =>
    simp only [substeps]
    rw [pow_succ, mul_comm ((ρ + (1 - ρ) * κ) ^ n), mul_assoc, ← ih, hg]
    have hd' : c = d - κ * d := by rw [hg] at hd; linear_combination hd
    rw [hd', hρ]
    simp only [Complex.real_smul, Complex.ofReal_sub, Complex.ofReal_one]
    ring

/-- The linear system `y' = λ y` (a spring for imaginary, a damper for negative `λ`), integrated
with `N = n + 1` substeps: the distance to the implicit solution. -/
theorem imp_linear {M : Type} (mc : Machine ℝ ℂ M) (ax : Aux ℝ ℂ) (lam : ℂ)
    (hf : RateIs mc fun _ y => lam * y) (hr : ax.relax = relaxEuler) (fac dt : ℝ)
    (s : Sim ℝ ℂ M) (hne : 1 - lam * (fac * dt) ≠ 0) (n : ℕ) :
    (stepOf mc ax (.impEuler (n + 1) fac) dt s).r 0 -
        (s.r 0 + dt * (lam * s.r 0 / (1 - lam * (fac * dt)))) =
      dt * (lam * (fac * dt)) * ((9 / 10 * (1 - 1 / ((n + 1 : ℕ) : ℝ)) : ℝ) +
        (1 - (9 / 10 * (1 - 1 / ((n + 1 : ℕ) : ℝ)) : ℝ)) * (lam * (fac * dt))) ^ n *
        (s.rd 0 - lam * s.r 0 / (1 - lam * (fac * dt))) := by
  simp only [stepOf]
  rw [impEuler_eq mc ax hf hr]
  set d := lam * s.r 0 / (1 - lam * (fac * dt)) with hd
  set ρ := 9 / 10 * (1 - 1 / ((n + 1 : ℕ) : ℝ)) with hρ
  have hgd : lam * (s.r 0 + (fac * dt : ℝ) • d) = d := by
    have h0 : d * (1 - lam * (fac * dt)) = lam * s.r 0 := div_mul_cancel₀ _ hne
    simp only [Complex.real_smul, Complex.ofReal_mul]
    linear_combination -h0
  have h := substeps_linear (lam * s.r 0) (lam * (fac * dt)) (ρ : ℂ) d ρ rfl
    (fun d => lam * (s.r 0 + (fac * dt : ℝ) • d))
    (fun x => by simp only [Complex.real_smul, Complex.ofReal_mul]; ring) hgd n (s.rd 0)
  generalize substeps (fun d => lam * (s.r 0 + (fac * dt : ℝ) • d)) ρ n (s.rd 0) = y at *
  have hy : y = d + ((ρ : ℂ) + (1 - (ρ : ℂ)) * (lam * (fac * dt))) ^ n * (s.rd 0 - d) := by
    rw [← h]; ring
  have hgd' : lam * s.r 0 = d - lam * (fac * dt) * d := by
    have := hgd
    simp only [Complex.real_smul, Complex.ofReal_mul] at this
    linear_combination this
  simp only [Complex.real_smul, Complex.ofReal_mul]
  have : lam * (s.r 0 + fac * dt * y) - d = lam * (fac * dt) * (y - d) := by
    linear_combination hgd'
  rw [hy] at *
  linear_combination (dt : ℂ) * this

/-- **C89** is false of large time steps, undamped: for an oscillation `y' = i ω y` with
`(ω fac dt)² ≥ 19` no number of substeps gets nearer to the implicit solution than the initial guess
of the derivative, times `ω fac dt > 4`. -/
theorem C89_spring_false {M : Type} (mc : Machine ℝ ℂ M) (ax : Aux ℝ ℂ) (om : ℝ)
    (hf : RateIs mc fun _ y => (om * Complex.I) * y) (hr : ax.relax = relaxEuler) (fac dt : ℝ)
    (hdt : 0 ≤ dt) (hbig : 19 ≤ (om * (fac * dt)) ^ 2) (s : Sim ℝ ℂ M) (n : ℕ) :
    let d := om * Complex.I * s.r 0 / (1 - om * Complex.I * (fac * dt))
    4 * dt * ‖s.rd 0 - d‖ ≤
      ‖(stepOf mc ax (.impEuler (n + 1) fac) dt s).r 0 - (s.r 0 + dt * d)‖ := by
  intro d
  have hne : (1 : ℂ) - om * Complex.I * (fac * dt) ≠ 0 := by
    intro h
    have := congrArg Complex.re h
    simp at this
  rw [imp_linear mc ax (om * Complex.I) hf hr fac dt s hne n]
  obtain ⟨hρ0, hρ1⟩ := relax_range n
  generalize (9 / 10 * (1 - 1 / ((n + 1 : ℕ) : ℝ)) : ℝ) = ρ at *
  have e1 : (om * Complex.I * (fac * dt) : ℂ) = ((om * (fac * dt) : ℝ) : ℂ) * Complex.I := by
    push_cast; ring
  change _ ≤ ‖_ * _ ^ n * (s.rd 0 - d)‖
  rw [norm_mul, norm_mul, norm_mul, norm_pow]
  have h1 : ‖(dt : ℂ)‖ = dt := by rw [Complex.norm_real, Real.norm_of_nonneg hdt]
  have h2 : (4 : ℝ) ≤ ‖(om * Complex.I * (fac * dt) : ℂ)‖ := by
    rw [e1, norm_mul, Complex.norm_I, mul_one, Complex.norm_real, Real.norm_eq_abs]
    nlinarith [abs_nonneg (om * (fac * dt)), sq_abs (om * (fac * dt))]
  have h3 : (1 : ℝ) ≤ ‖((ρ : ℂ) + (1 - (ρ : ℂ)) * (om * Complex.I * (fac * dt)))‖ := by
    have e2 : ((ρ : ℂ) + (1 - (ρ : ℂ)) * (om * Complex.I * (fac * dt))) =
        ⟨ρ, (1 - ρ) * (om * (fac * dt))⟩ := by
      apply Complex.ext <;> simp
    rw [e2]
    have h4 : (1 : ℝ) ≤ Complex.normSq ⟨ρ, (1 - ρ) * (om * (fac * dt))⟩ := by
      rw [Complex.normSq_mk]
      have : (1 - ρ) ^ 2 * 19 ≤ (1 - ρ) ^ 2 * (om * (fac * dt)) ^ 2 :=
        mul_le_mul_of_nonneg_left hbig (sq_nonneg _)
      nlinarith
    rw [Complex.normSq_eq_norm_sq] at h4
    nlinarith [norm_nonneg (⟨ρ, (1 - ρ) * (om * (fac * dt))⟩ : ℂ)]
  have h5 : (1 : ℝ) ≤ ‖((ρ : ℂ) + (1 - (ρ : ℂ)) * (om * Complex.I * (fac * dt)))‖ ^ n :=
    one_le_pow₀ h3
  rw [h1]
  have h6 : dt * 4 * 1 ≤ dt * ‖(om * Complex.I * (fac * dt) : ℂ)‖ *
      ‖((ρ : ℂ) + (1 - (ρ : ℂ)) * (om * Complex.I * (fac * dt)))‖ ^ n := by
    apply mul_le_mul _ h5 (by norm_num) (by positivity)
    exact mul_le_mul_of_nonneg_left h2 hdt
  nlinarith [norm_nonneg (s.rd 0 - d)]

/-- **C89** is false of large time steps, damped: `y' = - a y` with `a dt ≥ 19` integrated with
`BEuler` from the exact derivative at the beginning. The solution decays, the implicit scheme divides
by `1 + a dt`; the code multiplies by more than 300, however many substeps there are. -/
theorem C89_damper_false {M : Type} (mc : Machine ℝ ℂ M) (ax : Aux ℝ ℂ) (a : ℝ)
    (hf : RateIs mc fun _ y => (-(a : ℂ)) * y) (hr : ax.relax = relaxEuler) (dt : ℝ)
    (hbig : 19 ≤ a * dt) (s : Sim ℝ ℂ M) (hs : s.rd 0 = -(a : ℂ) * s.r 0) (n : ℕ) :
    300 * ‖s.r 0‖ ≤ ‖(stepOf mc ax (.impEuler (n + 1) 1) dt s).r 0‖ := by
  have hne : (1 : ℂ) - (-(a : ℂ)) * (((1 : ℝ) : ℂ) * dt) ≠ 0 := by
    have : (1 : ℂ) - (-(a : ℂ)) * (((1 : ℝ) : ℂ) * dt) = ((1 + a * dt : ℝ) : ℂ) := by
      push_cast; ring
    rw [this]
    have : (1 + a * dt : ℝ) ≠ 0 := by linarith
    exact_mod_cast this
  have h := imp_linear mc ax (-(a : ℂ)) hf hr 1 dt s hne n
  obtain ⟨hρ0, hρ1⟩ := relax_range n
  generalize (9 / 10 * (1 - 1 / ((n + 1 : ℕ) : ℝ)) : ℝ) = ρ at *
  rw [hs] at h
  set k := a * dt with hk
  have hk1 : (1 + k : ℝ) ≠ 0 := by linarith
  have hk1' : ((1 : ℂ) + k) ≠ 0 := by exact_mod_cast hk1
  have e0 : (-(a : ℂ)) * (((1 : ℝ) : ℂ) * dt) = -(k : ℂ) := by
    rw [hk]; push_cast; ring
  rw [e0, sub_neg_eq_add] at h
  have e1 : (stepOf mc ax (.impEuler (n + 1) 1) dt s).r 0 =
      ((1 / (1 + k) + k ^ 3 / (1 + k) * (ρ - (1 - ρ) * k) ^ n : ℝ) : ℂ) * s.r 0 := by
    have : (stepOf mc ax (.impEuler (n + 1) 1) dt s).r 0 =
        s.r 0 + dt * (-(a : ℂ) * s.r 0 / (1 + k)) +
        dt * (-(k : ℂ)) * ((ρ : ℂ) + (1 - (ρ : ℂ)) * (-(k : ℂ))) ^ n *
        (-(a : ℂ) * s.r 0 - -(a : ℂ) * s.r 0 / (1 + k)) := by
      rw [← h]; ring
    rw [this]
    have e2 : (ρ : ℂ) + (1 - (ρ : ℂ)) * (-(k : ℂ)) = ((ρ - (1 - ρ) * k : ℝ) : ℂ) := by
      push_cast; ring
    rw [e2]
    push_cast
    generalize ((ρ : ℂ) - (1 - (ρ : ℂ)) * (k : ℂ)) ^ n = z
    have hkc : (k : ℂ) = a * dt := by rw [hk]; push_cast; rfl
    field_simp
    rw [hkc]
    ring
  rw [e1, norm_mul, Complex.norm_real, Real.norm_eq_abs]
  apply mul_le_mul_of_nonneg_right _ (norm_nonneg _)
  have h1 : 1 ≤ |ρ - (1 - ρ) * k| := by
    rw [le_abs]; right
    nlinarith
  have h2 : 1 ≤ |ρ - (1 - ρ) * k| ^ n := one_le_pow₀ h1
  have hk0 : 0 < 1 + k := by linarith
  have h3 : k ^ 3 / (1 + k) ≤ |k ^ 3 / (1 + k) * (ρ - (1 - ρ) * k) ^ n| := by
    rw [abs_mul, abs_pow, abs_of_nonneg (by positivity)]
    have : 0 ≤ k ^ 3 / (1 + k) := by positivity
    nlinarith
  have h4 : 301 ≤ k ^ 3 / (1 + k) := by
    rw [le_div_iff₀ hk0]
    nlinarith [sq_nonneg (k - 19), mul_nonneg (by linarith : 0 ≤ k) (sq_nonneg (k - 19))]
  have h5 : |1 / (1 + k)| ≤ 1 := by
    rw [abs_of_nonneg (by positivity), div_le_one hk0]
    linarith
  have h6 := abs_sub_abs_le_abs_sub (k ^ 3 / (1 + k) * (ρ - (1 - ρ) * k) ^ n) (-(1 / (1 + k)))
  rw [abs_neg] at h6
  rw [sub_neg_eq_add, add_comm (k ^ 3 / (1 + k) * (ρ - (1 - ρ) * k) ^ n)] at h6
  linarith

/-- **C89** is false of `ACA`: with 24 or more substeps the relaxation factor of the first one is
greater than one, so that the first substep goes away from the new derivative instead of towards
it. -/
theorem C89_aca_factor_false (N : ℕ) (hN : 24 ≤ N) : 1 < relaxNewmark N 0 := by
  have hN' : (24 : ℝ) ≤ N := by exact_mod_cast hN
  have hNp : (0 : ℝ) < N := by linarith
  unfold relaxNewmark relaxOf
  simp only [Nat.cast_zero, zero_add]
  set x : ℝ := 4 * (1 / (N : ℝ) - 1 / 2) with hx
  have h1N : 1 / (N : ℝ) ≤ 1 / 24 := one_div_le_one_div_of_le (by norm_num) hN'
  have h0N : 0 < 1 / (N : ℝ) := by positivity
  have hxle : x ≤ -(11 / 6) := by rw [hx]; linarith
  have ht : Real.tanh x ≤ -(9 / 10) := by
    rw [Real.tanh_eq_sinh_div_cosh, div_le_iff₀ (Real.cosh_pos x), Real.sinh_eq, Real.cosh_eq]
    have h3 : Real.exp x * Real.exp (-x) = 1 := by rw [← Real.exp_add]; simp
    have h4 : (5 : ℝ) ≤ Real.exp (-x) := by
      have h5 : Real.exp (11 / 6) ≤ Real.exp (-x) := Real.exp_le_exp.2 (by linarith)
      have h6 : (27 / 10 : ℝ) ≤ Real.exp 1 := by
        have := Real.exp_one_gt_d9
        linarith
      have h7 : Real.exp (11 / 6) = Real.exp 1 * Real.exp (5 / 6) := by
        rw [← Real.exp_add]; norm_num
      have h8 : (1 + 5 / 6 + (5 / 6) ^ 2 / 2 : ℝ) ≤ Real.exp (5 / 6) :=
        Real.quadratic_le_exp_of_nonneg (by norm_num)
      nlinarith
    have hpx := Real.exp_pos x
    have h9 : Real.exp x ≤ 1 / 5 := by nlinarith
    nlinarith
  nlinarith

/-- The relaxation factor of the other schemes is between zero and one; that of Wilson's is a sixtieth of that of
Euler's. -/
theorem C89_factor (N i : ℕ) (hN : 1 ≤ N) :
    0 ≤ relaxEuler N i ∧ relaxEuler N i < 1 ∧ 0 ≤ relaxWilson N i ∧ relaxWilson N i < 1 ∧
      relaxEuler N i = 60 * relaxWilson N i ∧ relaxEuler N i + 9 / 10 * (1 / (N : ℝ)) = 9 / 10 := by
  have hN' : (1 : ℝ) ≤ N := by exact_mod_cast hN
  have h1 : 1 / (N : ℝ) ≤ 1 := (div_le_one (by linarith)).2 hN'
  have h0 : 0 ≤ 1 / (N : ℝ) := by positivity
  unfold relaxWilson relaxEuler relaxOf
  simp only
  refine ⟨?_, ?_, ?_, ?_, ?_, ?_⟩ <;> nlinarith

/-- The relaxation factor of `ACA` is that of the other schemes and at most 0.15 more. It is less than one with up
to 18 substeps, and in the second half of them with any number. -/
theorem C89_aca_factor (N i : ℕ) (hN : 1 ≤ N) :
    0 < relaxNewmark N i ∧ relaxEuler N i < relaxNewmark N i ∧
      relaxNewmark N i < relaxEuler N i + 15 / 100 ∧ (N ≤ 18 → relaxNewmark N i < 1) ∧
      (N ≤ 2 * (i + 1) → relaxNewmark N i < 1) := by
  have hN' : (1 : ℝ) ≤ N := by exact_mod_cast hN
  have hNp : (0 : ℝ) < N := by linarith
  have h1 : 1 / (N : ℝ) ≤ 1 := (div_le_one hNp).2 hN'
  have h0 : 0 < 1 / (N : ℝ) := by positivity
  unfold relaxNewmark relaxEuler relaxOf
  simp only
  set x : ℝ := 4 * (((i : ℝ) + 1) / N - 1 / 2) with hx
  have ht1 : Real.tanh x < 1 := Real.tanh_lt_one x
  have ht0 : -1 < Real.tanh x := Real.neg_one_lt_tanh x
  refine ⟨by nlinarith, by nlinarith, by nlinarith, fun h => ?_, fun h => ?_⟩
  · have h18 : (N : ℝ) ≤ 18 := by exact_mod_cast h
    have : 1 / 18 ≤ 1 / (N : ℝ) := one_div_le_one_div_of_le hNp h18
    nlinarith
  · have hh : (N : ℝ) ≤ 2 * ((i : ℝ) + 1) := by exact_mod_cast h
    have : 1 / 2 ≤ ((i : ℝ) + 1) / N := by rw [le_div_iff₀ hNp]; linarith
    have hx0 : 0 ≤ x := by rw [hx]; linarith
    have : 0 ≤ Real.tanh x := by
      rw [Real.tanh_eq_sinh_div_cosh]
      exact div_nonneg (Real.sinh_nonneg_iff.2 hx0) (Real.cosh_pos x).le
    nlinarith

/-- A damper, `y' = - a y`, without memory -/
noncomputable def damper (a : ℝ) : Machine ℝ ℂ ℂ where
  update := fun _ _ e _ => e
  eval := fun m => (-(a : ℂ) * m, m)
  next := id

/-- The operations of `BEuler` -/
noncomputable def aux : Aux ℝ ℂ :=
  ⟨relaxEuler, fun _ _ => false, fun _ _ a _ _ => a, fun a _ _ _ => a, fun a _ => a, (· - ·)⟩

/-- Non-vacuity of `C89_solution`, `C89_substeps_partial` and `C89_limit_partial`: `a dt = 1/2`. -/
example : RateIs (damper 2) (fun _ y => -((2 : ℝ) : ℂ) * y) ∧ aux.relax = relaxEuler ∧
    (∀ x y : ℂ, ‖-((2 : ℝ) : ℂ) * x - -((2 : ℝ) : ℂ) * y‖ ≤ 2 * ‖x - y‖) ∧
    (2 : ℝ) * (1 * (1 / 4)) < 1 := by
  refine ⟨fun _ _ _ _ => rfl, rfl, fun x y => ?_, by norm_num⟩
  rw [← mul_sub, norm_mul, norm_neg]
  simp

/-- Non-vacuity of `C89_damper_false`: `a dt = 20`. -/
example : ∃ s : Sim ℝ ℂ ℂ, s.rd 0 = -((40 : ℝ) : ℂ) * s.r 0 ∧ s.r 0 ≠ 0 ∧
    (19 : ℝ) ≤ 40 * (1 / 2) ∧ RateIs (damper 40) (fun _ y => -((40 : ℝ) : ℂ) * y) :=
  ⟨⟨0, 0, fun _ => 1, fun _ => -((40 : ℝ) : ℂ), 0, 0⟩, by simp, by simp, by norm_num,
    fun _ _ _ _ => rfl⟩

end MD.Time
