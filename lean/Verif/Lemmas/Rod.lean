import Verif.Model.Rod
import Verif.Lemmas.Line
import Mathlib.Tactic.LinearCombination
import Mathlib.Tactic.FieldSimp
import Mathlib.Tactic.Module
import Mathlib.Tactic.FinCases
import Mathlib.Analysis.SpecialFunctions.Trigonometric.Bounds

/-! # Lemmas on the rod model -/

set_option linter.unusedSimpArgs false
set_option linter.unusedVariables false

namespace MD.Rods

open Matrix MD.Mat MD.Rot MD.Mooring Finset

variable {R : Rod} {e : Env}

/-! ## Positions -/

theorem r_zero : r R 0 = R.r0 := by simp [r]

theorem r_eq (hN : R.N ≠ 0) (i : ℕ) : r R i = R.r0 + ((i : ℝ) / R.N * R.UnstrLen) • R.q := by
  have hN' : (R.N : ℝ) ≠ 0 := by exact_mod_cast hN
  unfold r
  simp only [hN, if_false]
  split_ifs with h1 h2
  · subst h1; simp
  · subst h2; rw [div_self hN', one_mul]
  · rw [add_sub_cancel_left, smul_smul]

theorem r_rel (hN : R.N ≠ 0) (i : ℕ) : r R i - r R 0 = ((i : ℝ) / R.N * R.UnstrLen) • R.q := by
  rw [r_zero, r_eq hN, add_sub_cancel_left]

theorem rd_zero : rd R 0 = R.vA := by simp [rd]

theorem rd_eq (hN : R.N ≠ 0) (i : ℕ) :
    rd R i = R.vA + R.w ⨯₃ (r R i - r R 0) := by
  have hN' : (R.N : ℝ) ≠ 0 := by exact_mod_cast hN
  rw [r_rel hN]
  unfold rd
  simp only [hN, if_false]
  split_ifs with h1 h2
  · subst h1; simp
  · subst h2; rw [div_self hN', one_mul]
  · rw [add_sub_cancel_left, mul_smul, map_smul, map_smul, map_smul]

/-! ## Tributary lengths -/

theorem l_mul (hN : R.N ≠ 0) : l R * R.N = R.UnstrLen := by
  have hN' : (R.N : ℝ) ≠ 0 := by exact_mod_cast hN
  simp [l, hN, div_mul_cancel₀]

theorem l_pos (hN : R.N ≠ 0) (hL : 0 < R.UnstrLen) : 0 < l R := by
  have hN' : (0 : ℝ) < R.N := by exact_mod_cast Nat.pos_of_ne_zero hN
  simp only [l, hN, if_false]
  positivity

theorem dL_pos (hN : R.N ≠ 0) (hL : 0 < R.UnstrLen) (i : ℕ) : 0 < dL R i := by
  have := l_pos hN hL
  unfold dL
  split_ifs <;> linarith

theorem dL_nonneg (hL : 0 ≤ R.UnstrLen) (i : ℕ) : 0 ≤ dL R i := by
  have : 0 ≤ l R := by unfold l; split_ifs <;> positivity
  unfold dL
  split_ifs <;> linarith

/-- trapezoidal rule: the sum of a quantity weighted by the tributary lengths -/
theorem trap {E : Type} [AddCommGroup E] [Module ℝ E] (hN : R.N ≠ 0) (f : ℕ → E) :
    ∑ i ∈ range (R.N + 1), dL R i • f i
      = l R • ((1 / 2 : ℝ) • f 0 + ∑ i ∈ range (R.N - 1), f (i + 1) + (1 / 2 : ℝ) • f R.N) := by
  obtain ⟨k, hk⟩ : ∃ k, R.N = k + 1 := ⟨R.N - 1, by omega⟩
  have h1 : ∀ i ∈ range k, dL R (i + 1) • f (i + 1) = l R • f (i + 1) := by
    intro i hi
    rw [mem_range] at hi
    have : dL R (i + 1) = l R := by
      unfold dL
      rw [if_neg (by omega), if_neg (by omega)]; ring
    rw [this]
  have h0 : dL R 0 = 1 / 2 * l R := by simp [dL]
  have hn : dL R (k + 1) = 1 / 2 * l R := by
    unfold dL; rw [if_neg (by omega), if_pos hk.symm]
  rw [hk, sum_range_succ, sum_range_succ', sum_congr rfl h1, h0, hn, ← smul_sum,
    Nat.add_sub_cancel]
  module

theorem sum_id (k : ℕ) : ∑ i ∈ range k, ((i + 1 : ℕ) : ℝ) = k * (k + 1) / 2 := by
  induction k with
  | zero => simp
  | succ k ih => rw [sum_range_succ, ih]; push_cast; ring

theorem sum_sq (k : ℕ) :
    ∑ i ∈ range k, ((i + 1 : ℕ) : ℝ) ^ 2 = k * (k + 1) * (2 * k + 1) / 6 := by
  induction k with
  | zero => simp
  | succ k ih => rw [sum_range_succ, ih]; push_cast; ring

theorem sum_dL (hN : R.N ≠ 0) : ∑ i ∈ range (R.N + 1), dL R i = R.UnstrLen := by
  have h := trap hN (fun _ => (1 : ℝ))
  simp only [smul_eq_mul, mul_one, sum_const, card_range, nsmul_eq_mul] at h
  rw [h, ← l_mul hN, Nat.cast_sub (by omega)]
  push_cast; ring

theorem sum_dL_x (hN : R.N ≠ 0) :
    ∑ i ∈ range (R.N + 1), dL R i * ((i : ℝ) / R.N * R.UnstrLen)
      = R.UnstrLen * R.UnstrLen / 2 := by
  have hN' : (R.N : ℝ) ≠ 0 := by exact_mod_cast hN
  have h := trap hN (fun i => ((i : ℝ)))
  simp only [smul_eq_mul] at h
  have : ∀ i ∈ range (R.N + 1), dL R i * ((i : ℝ) / R.N * R.UnstrLen)
      = dL R i * (i : ℝ) * l R := by
    intro i hi
    rw [← l_mul hN]; field_simp
  rw [sum_congr rfl this, ← sum_mul, h, sum_id, ← l_mul hN, Nat.cast_sub (by omega)]
  push_cast; ring

theorem sum_dL_xx (hN : R.N ≠ 0) :
    ∑ i ∈ range (R.N + 1), dL R i * ((i : ℝ) / R.N * R.UnstrLen) ^ 2
      = R.UnstrLen ^ 3 * (1 / 3 + 1 / (6 * R.N * R.N)) := by
  have hN' : (R.N : ℝ) ≠ 0 := by exact_mod_cast hN
  have h := trap hN (fun i => ((i : ℝ)) ^ 2)
  simp only [smul_eq_mul] at h
  have : ∀ i ∈ range (R.N + 1), dL R i * ((i : ℝ) / R.N * R.UnstrLen) ^ 2
      = dL R i * (i : ℝ) ^ 2 * l R ^ 2 := by
    intro i hi
    rw [← l_mul hN]; field_simp
  rw [sum_congr rfl this, ← sum_mul, h, sum_sq, ← l_mul hN, Nat.cast_sub (by omega)]
  push_cast; field_simp; ring

theorem Lsum_eq_sum (n : ℕ) : Lsum R n = ∑ i ∈ range n, dL R i := by
  induction n with
  | zero => rfl
  | succ n ih => rw [sum_range_succ, ← ih]; rfl

theorem Lsum_top (hN : R.N ≠ 0) : Lsum R (R.N + 1) = R.UnstrLen := by
  rw [Lsum_eq_sum, sum_dL hN]

theorem Lsum_mono (hL : 0 ≤ R.UnstrLen) {a b : ℕ} (h : a ≤ b) : Lsum R a ≤ Lsum R b := by
  induction h with
  | refl => exact le_refl _
  | step _ ih => exact le_trans ih (le_add_of_nonneg_right (dL_nonneg hL _))

theorem Lsum_nonneg (hL : 0 ≤ R.UnstrLen) (a : ℕ) : 0 ≤ Lsum R a := Lsum_mono hL (Nat.zero_le a)

theorem v_eq (hN : R.N ≠ 0) (i : ℕ) : v R i = area R * dL R i := by
  unfold v dL segV area
  simp only [hN, if_false]
  split_ifs <;> ring

theorem sum_m (hN : R.N ≠ 0) : ∑ i ∈ range (R.N + 1), m R i = mass R := by
  unfold m
  rw [← sum_mul, ← mul_sum, sum_dL hN]
  unfold area mass; ring

theorem sum_mx (hN : R.N ≠ 0) :
    ∑ i ∈ range (R.N + 1), m R i * ((i : ℝ) / R.N * R.UnstrLen) = mass R * (R.UnstrLen / 2) := by
  have : ∀ i ∈ range (R.N + 1), m R i * ((i : ℝ) / R.N * R.UnstrLen)
      = area R * R.rho * (dL R i * ((i : ℝ) / R.N * R.UnstrLen)) := by
    intro i _; unfold m; ring
  rw [sum_congr rfl this, ← mul_sum, sum_dL_x hN]
  unfold area mass; ring

theorem sum_mxx (hN : R.N ≠ 0) :
    ∑ i ∈ range (R.N + 1), m R i * ((i : ℝ) / R.N * R.UnstrLen) ^ 2
      = mass R * (R.UnstrLen ^ 2 * (1 / 3 + 1 / (6 * R.N * R.N))) := by
  have : ∀ i ∈ range (R.N + 1), m R i * ((i : ℝ) / R.N * R.UnstrLen) ^ 2
      = area R * R.rho * (dL R i * ((i : ℝ) / R.N * R.UnstrLen) ^ 2) := by
    intro i _; unfold m; ring
  rw [sum_congr rfl this, ← mul_sum, sum_dL_xx hN]
  unfold area mass; ring

/-! ## Submerged fractions -/

theorem vof0_mul {h Ls dl : ℝ} (hh : 0 ≤ h) (hd : 0 < dl) :
    vof0 h Ls dl * dl = min h (Ls + dl) - min h Ls := by
  unfold vof0
  rw [if_neg (not_lt.mpr hh)]
  split_ifs with h1 h2
  · rw [min_eq_right h1, min_eq_right (by linarith)]; ring
  · rw [min_eq_left (by linarith), min_eq_right h2.le]; field_simp
  · rw [min_eq_left (by linarith), min_eq_left (by linarith)]; ring

theorem vof0_range {h Ls dl : ℝ} (hl : 0 ≤ Ls) (hd : 0 ≤ dl) :
    0 ≤ vof0 h Ls dl ∧ vof0 h Ls dl ≤ 1 := by
  unfold vof0
  split_ifs with h1 h2 h3 h4 h5
  · norm_num
  · linarith
  · norm_num
  · norm_num
  · have : 0 < dl := by linarith
    constructor
    · apply div_nonneg <;> linarith
    · rw [div_le_one this]; linarith
  · norm_num

theorem sum_vof0 (hN : R.N ≠ 0) (hL : 0 < R.UnstrLen) {h : ℝ} (h0 : 0 ≤ h) (n : ℕ) :
    ∑ i ∈ range n, vof0 h (Lsum R i) (dL R i) * dL R i = min h (Lsum R n) := by
  induction n with
  | zero => simp [Lsum, h0]
  | succ n ih =>
    rw [sum_range_succ, ih, vof0_mul h0 (dL_pos hN hL n)]
    change _ = min h (Lsum R n + dL R n)
    ring

theorem lens_range {al : ℝ} (h0 : 0 ≤ al) (h1 : al ≤ Real.pi) :
    0 ≤ 2 * al - Real.sin (2 * al) ∧ 2 * al - Real.sin (2 * al) ≤ 2 * Real.pi := by
  constructor
  · have := Real.sin_le (show 0 ≤ 2 * al by linarith)
    linarith
  · have h2 := Real.sin_le (show 0 ≤ 2 * Real.pi - 2 * al by linarith)
    rw [Real.sin_two_pi_sub] at h2
    linarith

theorem crossSection_nonneg (hd : 0 ≤ R.d) (z ze s : ℝ) : 0 ≤ (crossSection R z ze s).1 := by
  unfold crossSection
  split_ifs
  · simp
  · have := Real.pi_pos; dsimp only; positivity
  · norm_num
  · have h := lens_range (Real.arccos_nonneg (2 * ((z - ze) / |s|) / R.d))
      (Real.arccos_le_pi (2 * ((z - ze) / |s|) / R.d))
    dsimp only
    apply mul_nonneg (by positivity) h.1

theorem crossSection_le (hd : 0 < R.d) {z ze s : ℝ}
    (hs : 1 / 1000 ≤ |s| ∨ z1lo R z s > ze ∨ z1hi R z s < ze) :
    (crossSection R z ze s).1 ≤ 1 / 4 * Real.pi * R.d * R.d := by
  have hpi := Real.pi_pos
  unfold crossSection
  split_ifs with h1 h2 h3
  · dsimp only; positivity
  · dsimp only; nlinarith
  · rcases hs with h | h | h
    · linarith
    · exact absurd h h1
    · exact absurd h h2
  · have h := lens_range (Real.arccos_nonneg (2 * ((z - ze) / |s|) / R.d))
      (Real.arccos_le_pi (2 * ((z - ze) / |s|) / R.d))
    dsimp only
    have h5 : R.d * R.d / 8 * (2 * Real.arccos (2 * ((z - ze) / |s|) / R.d) -
        Real.sin (2 * Real.arccos (2 * ((z - ze) / |s|) / R.d)))
        ≤ R.d * R.d / 8 * (2 * Real.pi) := mul_le_mul_of_nonneg_left h.2 (by positivity)
    linarith

/-! ## Angles -/

theorem angle_spec {v : V} {a : ℝ × ℝ} (h : orientationAngles v = some a) (hv : v ⬝ᵥ v = 1) :
    Real.cos a.1 = v 2 ∧ Real.sin a.1 = Real.sqrt (v 0 * v 0 + v 1 * v 1) := by
  have hvv : v 0 * v 0 + v 1 * v 1 + v 2 * v 2 = 1 := by
    simpa [dotProduct, Fin.sum_univ_three] using hv
  unfold orientationAngles at h
  rw [if_neg (by rw [hv]; norm_num)] at h
  simp only [Option.some.injEq] at h
  subst h
  dsimp only
  set l := Real.sqrt (v 0 * v 0 + v 1 * v 1) with hl
  have hl2 : l * l = v 0 * v 0 + v 1 * v 1 :=
    Real.mul_self_sqrt (by nlinarith [mul_self_nonneg (v 0), mul_self_nonneg (v 1)])
  have hz : (⟨v 2, l⟩ : ℂ) ≠ 0 := by
    intro h0
    have h1 : v 2 = 0 := congrArg Complex.re h0
    have h2 : l = 0 := congrArg Complex.im h0
    rw [h1] at hvv
    rw [h2] at hl2
    linarith
  have hn : ‖(⟨v 2, l⟩ : ℂ)‖ = 1 := by
    rw [Complex.norm_def, Complex.normSq_mk, hl2]
    rw [show v 2 * v 2 + (v 0 * v 0 + v 1 * v 1) = 1 by linarith, Real.sqrt_one]
  constructor
  · show Real.cos (Complex.arg _) = _
    rw [Complex.cos_arg hz, hn]; simp
  · show Real.sin (Complex.arg _) = _
    rw [Complex.sin_arg, hn]; simp

/-- The heading is that of the axis unless the rod is nearly, but not exactly, vertical -/
theorem heading_spec {v : V} {a : ℝ × ℝ} (h : orientationAngles v = some a) (hv : v ⬝ᵥ v = 1)
    (hl : (v 0 = 0 ∧ v 1 = 0) ∨ 1 / 10 ^ 6 ≤ Real.sqrt (v 0 * v 0 + v 1 * v 1)) :
    Real.cos a.2 * Real.sin a.1 = v 0 ∧ Real.sin a.2 * Real.sin a.1 = v 1 := by
  rw [(angle_spec h hv).2]
  unfold orientationAngles at h
  rw [if_neg (by rw [hv]; norm_num)] at h
  simp only [Option.some.injEq] at h
  subst h
  dsimp only
  set l := Real.sqrt (v 0 * v 0 + v 1 * v 1) with hl'
  have hl0 : 0 ≤ l := Real.sqrt_nonneg _
  rcases hl with ⟨h0, h1⟩ | h6
  · have : l = 0 := by rw [hl', h0, h1]; simp
    rw [this, h0, h1]; simp
  · rw [if_neg (by rw [abs_of_nonneg hl0]; exact not_lt.mpr h6)]
    have hn : ‖(⟨v 0, v 1⟩ : ℂ)‖ = l := by
      rw [Complex.norm_def, Complex.normSq_mk]
    have hlp : 0 < l := lt_of_lt_of_le (by norm_num) h6
    have hz : (⟨v 0, v 1⟩ : ℂ) ≠ 0 := by
      intro h0; rw [h0, norm_zero] at hn; linarith
    have hc : Real.cos (Complex.arg ⟨v 0, v 1⟩) = v 0 / l := by rw [Complex.cos_arg hz, hn]
    have hs : Real.sin (Complex.arg ⟨v 0, v 1⟩) = v 1 / l := by rw [Complex.sin_arg, hn]
    unfold atan2
    rw [hc, hs]
    constructor <;> field_simp

theorem orientationAngles_isSome {v : V} (hv : v ⬝ᵥ v = 1) : ∃ a, orientationAngles v = some a := by
  unfold orientationAngles
  rw [if_neg (by rw [hv]; norm_num)]
  exact ⟨_, rfl⟩

theorem Imat_eq (phi beta Ir Il : ℝ) (u : V)
    (h : u = ![Real.cos beta * Real.sin phi, Real.sin beta * Real.sin phi, Real.cos phi]) :
    Imat phi beta Ir Il = Ir • (1 - Q u) + Il • Q u := by
  subst h
  have h1 := Real.sin_sq_add_cos_sq phi
  have h2 := Real.sin_sq_add_cos_sq beta
  unfold Imat rotateMass rotZ rotY Q
  generalize Real.sin phi = s at *
  generalize Real.cos phi = c at *
  generalize Real.sin beta = t at *
  generalize Real.cos beta = b at *
  ext i j
  fin_cases i <;> fin_cases j <;>
    simp [Matrix.mul_apply, Fin.sum_univ_three, vecMulVec, Matrix.one_apply] <;>
    grobner

theorem translateMass_add (x : V) (A B : M3 ℝ) :
    translateMass x (A + B) = translateMass x A + translateMass x B := by
  unfold translateMass
  simp only [Matrix.fromBlocks_add, Matrix.add_mul, Matrix.mul_add, Matrix.transpose_add]

theorem getH_smul (c : ℝ) (u : V) : getH (c • u) = c • getH u := by
  ext i j
  fin_cases i <;> fin_cases j <;> simp [getH]

theorem getH_mul_transpose {u : V} (hu : u ⬝ᵥ u = 1) : getH u * (getH u)ᵀ = 1 - Q u := by
  have h : u 0 * u 0 + u 1 * u 1 + u 2 * u 2 = 1 := by
    simpa [dotProduct, Fin.sum_univ_three] using hu
  unfold getH Q
  ext i j
  fin_cases i <;> fin_cases j <;>
    simp [Matrix.mul_apply, Fin.sum_univ_three, vecMulVec, Matrix.one_apply] <;> grobner

theorem translateMass_scalar {u : V} (hu : u ⬝ᵥ u = 1) (x mm : ℝ) :
    translateMass (x • u) (mm • (1 : M3 ℝ))
      = fromBlocks (mm • 1) ((mm * x) • getH u) ((mm * x) • (getH u)ᵀ)
          ((mm * x ^ 2) • (1 - Q u)) := by
  unfold translateMass
  rw [getH_smul, ← getH_mul_transpose hu]
  simp only [Matrix.smul_mul, Matrix.one_mul, Matrix.mul_smul, Matrix.mul_one,
    Matrix.transpose_smul, smul_smul]
  congr 1
  · rw [mul_comm x mm]
  · rw [mul_comm x mm]
  · rw [show x * (mm * x) = mm * x ^ 2 by ring]

theorem sum_fromBlocks (n : ℕ) (A B C D : ℕ → M3 ℝ) :
    ∑ i ∈ range n, fromBlocks (A i) (B i) (C i) (D i)
      = fromBlocks (∑ i ∈ range n, A i) (∑ i ∈ range n, B i) (∑ i ∈ range n, C i)
          (∑ i ∈ range n, D i) := by
  induction n with
  | zero => simp
  | succ n ih => rw [sum_range_succ, ih, Matrix.fromBlocks_add]; simp only [sum_range_succ]

end MD.Rods
