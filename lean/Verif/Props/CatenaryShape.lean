/-
C39: the shape computed by the catenary solver (source/QSlines.hpp): Newton's method uses the
true derivatives, the Jacobian is regular, the first node is the anchor, the last node is the
fairlead up to the errors, every piece of the line is in equilibrium, the tensions at the ends
carry the weight.
-/
import Verif.Props.Catenary
import Verif.Lemmas.Catenary

set_option linter.unusedSimpArgs false

namespace MD.Catenary

/-! ### Newton's method uses the derivatives of the errors -/

theorem deriv_const_div (a h : ℝ) (hh : h ≠ 0) : HasDerivAt (fun y => a / y) (-a / (h * h)) h := by
  have := (hasDerivAt_const h a).div (hasDerivAt_id h) hh
  refine this.congr_deriv ?_
  simp [pow_two]

theorem deriv_lg_H (a h W : ℝ) (hh : h ≠ 0) :
    HasDerivAt (fun y => lg (a / y) * (y / W)) (lg (a / h) / W - (a / h) / sq (a / h) / W) h := by
  have h1 := (hasDerivAt_lg (a / h)).comp h (deriv_const_div a h hh)
  have h2 := h1.mul ((hasDerivAt_id h).div_const W)
  refine h2.congr_deriv ?_
  have := (sq_pos (a / h)).ne'
  simp only [Function.comp, id]
  by_cases hW : W = 0
  · simp [hW]
  field_simp
  ring

theorem deriv_sq_H (a h W : ℝ) (hh : h ≠ 0) :
    HasDerivAt (fun y => sq (a / y) * (y / W))
      (sq (a / h) / W - (a / h) * (a / h) / sq (a / h) / W) h := by
  have h1 := (hasDerivAt_sq (a / h)).comp h (deriv_const_div a h hh)
  have h2 := h1.mul ((hasDerivAt_id h).div_const W)
  refine h2.congr_deriv ?_
  have := (sq_pos (a / h)).ne'
  simp only [Function.comp, id]
  by_cases hW : W = 0
  · simp [hW]
  field_simp
  ring

theorem deriv_lg_V (v h W c : ℝ) (hh : h ≠ 0) :
    HasDerivAt (fun y => lg ((y - c) / h) * (h / W)) (1 / sq ((v - c) / h) / W) v := by
  have h0 : HasDerivAt (fun y => (y - c) / h) (1 / h) v := ((hasDerivAt_id v).sub_const c).div_const h
  have h1 := ((hasDerivAt_lg ((v - c) / h)).comp v h0).mul_const (h / W)
  refine h1.congr_deriv ?_
  by_cases hW : W = 0
  · simp [hW]
  field_simp

theorem deriv_sq_V (v h W c : ℝ) (hh : h ≠ 0) :
    HasDerivAt (fun y => sq ((y - c) / h) * (h / W))
      ((v - c) / h / sq ((v - c) / h) / W) v := by
  have h0 : HasDerivAt (fun y => (y - c) / h) (1 / h) v := ((hasDerivAt_id v).sub_const c).div_const h
  have h1 := ((hasDerivAt_sq ((v - c) / h)).comp v h0).mul_const (h / W)
  refine h1.congr_deriv ?_
  by_cases hW : W = 0
  · simp [hW]
  field_simp

theorem deriv_lg_V0 (v h W : ℝ) (hh : h ≠ 0) :
    HasDerivAt (fun y => lg (y / h) * (h / W)) (1 / sq (v / h) / W) v := by
  have := deriv_lg_V v h W 0 hh
  simpa using this

theorem deriv_sq_V0 (v h W : ℝ) (hh : h ≠ 0) :
    HasDerivAt (fun y => sq (y / h) * (h / W)) (v / h / sq (v / h) / W) v := by
  have := deriv_sq_V v h W 0 hh
  simpa using this

/-- A matrix of partial derivatives of the errors. -/
def IsJacobian (f : ℝ → ℝ → Resid) (HF VF : ℝ) : Prop :=
  HasDerivAt (fun h => (f h VF).EXF) (f HF VF).dXFdHF HF ∧
  HasDerivAt (fun v => (f HF v).EXF) (f HF VF).dXFdVF VF ∧
  HasDerivAt (fun h => (f h VF).EZF) (f HF VF).dZFdHF HF ∧
  HasDerivAt (fun v => (f HF v).EZF) (f HF VF).dZFdVF VF

/-- The four derivatives used by Newton's method are the derivatives of the errors, in each of
the three configurations of the line. -/
theorem C39_jacobian (p : Par) (HF VF : ℝ) (hH : HF ≠ 0) (hW : p.W ≠ 0) (hE : p.EA ≠ 0) :
    IsJacobian (residSuspended p) HF VF ∧ IsJacobian (residDragging p) HF VF ∧
    (p.CB ≠ 0 → IsJacobian (residSlack p) HF VF) := by
  have hb : HasDerivAt (fun v => p.L - v / p.W) (-(1 / p.W)) VF := by
    have := ((hasDerivAt_id VF).div_const p.W).const_sub p.L
    exact this
  have hlin : HasDerivAt (fun h => p.L / p.EA * h) (p.L / p.EA) HF := by
    have := (hasDerivAt_id HF).const_mul (p.L / p.EA)
    simpa using this
  have hv2 : HasDerivAt (fun v => 0.5 * v * (v / (p.W * p.EA))) (VF / (p.W * p.EA)) VF := by
    have := ((hasDerivAt_id VF).const_mul 0.5).mul ((hasDerivAt_id VF).div_const (p.W * p.EA))
    refine this.congr_deriv ?_
    simp only [id]
    ring
  have hz1 : HasDerivAt (fun h => (sq (VF / h) - 1) * (h / p.W)
      + 0.5 * VF * (VF / (p.W * p.EA)) - p.ZF)
      ((sq (VF / HF) - 1 - VF / HF * (VF / HF) / sq (VF / HF)) / p.W) HF := by
    have h1 := (((deriv_sq_H VF HF p.W hH).sub ((hasDerivAt_id HF).div_const p.W)).add_const
      (0.5 * VF * (VF / (p.W * p.EA)))).sub_const p.ZF
    refine (h1.congr_deriv ?_).congr_of_eventuallyEq ?_
    · ring
    · filter_upwards with y
      simp only [Pi.sub_apply, id]
      ring
  have hz2 : HasDerivAt (fun v => (sq (v / HF) - 1) * (HF / p.W)
      + 0.5 * v * (v / (p.W * p.EA)) - p.ZF)
      ((VF / HF / sq (VF / HF)) / p.W + VF / (p.W * p.EA)) VF := by
    have h1 := (((deriv_sq_V0 VF HF p.W hH).sub_const (HF / p.W)).add hv2).sub_const p.ZF
    refine h1.congr_of_eventuallyEq ?_
    filter_upwards with y
    simp only [Pi.add_apply]
    ring
  refine ⟨⟨?_, ?_, ?_, ?_⟩, ⟨?_, ?_, hz1, hz2⟩, fun hC => ⟨?_, ?_, hz1, hz2⟩⟩
  · have h1 := (((deriv_lg_H VF HF p.W hH).sub (deriv_lg_H (VF - p.W * p.L) HF p.W hH)).add
      hlin).sub_const p.XF
    refine (h1.congr_deriv ?_).congr_of_eventuallyEq ?_
    · simp only [residSuspended, quot1]
      ring
    · filter_upwards with y
      simp only [residSuspended, Pi.add_apply, Pi.sub_apply]
      ring
  · have h1 := (((deriv_lg_V0 VF HF p.W hH).sub (deriv_lg_V VF HF p.W (p.W * p.L) hH)).add_const
      (p.L / p.EA * HF)).sub_const p.XF
    refine (h1.congr_deriv ?_).congr_of_eventuallyEq ?_
    · simp only [residSuspended, quot2]
      ring
    · filter_upwards with y
      simp only [residSuspended, Pi.add_apply, Pi.sub_apply]
      ring
  · have h1 := (((deriv_sq_H VF HF p.W hH).sub (deriv_sq_H (VF - p.W * p.L) HF p.W hH)).add_const
      (p.L / p.EA * (VF - 0.5 * (p.W * p.L)))).sub_const p.ZF
    refine (h1.congr_deriv ?_).congr_of_eventuallyEq ?_
    · simp only [residSuspended]
      ring
    · filter_upwards with y
      simp only [residSuspended, Pi.add_apply, Pi.sub_apply]
      ring
  · have hl : HasDerivAt (fun v => p.L / p.EA * (v - 0.5 * (p.W * p.L))) (p.L / p.EA) VF := by
      have := ((hasDerivAt_id VF).sub_const (0.5 * (p.W * p.L))).const_mul (p.L / p.EA)
      simpa using this
    have h1 := (((deriv_sq_V0 VF HF p.W hH).sub (deriv_sq_V VF HF p.W (p.W * p.L) hH)).add
      hl).sub_const p.ZF
    refine (h1.congr_deriv ?_).congr_of_eventuallyEq ?_
    · simp only [residSuspended]
      ring
    · filter_upwards with y
      simp only [residSuspended, Pi.add_apply, Pi.sub_apply]
      ring
  · have h1 := (((deriv_lg_H VF HF p.W hH).add hlin).add_const
      (-(0.5 * (p.CB / p.EA) * p.W * (p.L - VF / p.W) * (p.L - VF / p.W)) + (p.L - VF / p.W))).sub_const p.XF
    refine (h1.congr_deriv ?_).congr_of_eventuallyEq ?_
    · simp only [residDragging, quot1]
    · filter_upwards with y
      simp only [residDragging, Pi.add_apply, Pi.sub_apply]
      ring
  · have h1 := (((deriv_lg_V0 VF HF p.W hH).sub ((hb.mul hb).const_mul
      (0.5 * (p.CB / p.EA) * p.W))).add (hb.const_add (p.L / p.EA * HF))).sub_const p.XF
    refine (h1.congr_deriv ?_).congr_of_eventuallyEq ?_
    · simp only [residDragging, quot2]
      field_simp
      ring
    · filter_upwards with y
      simp only [residDragging, Pi.add_apply, Pi.sub_apply, Pi.mul_apply]
      ring
  · have hc : HasDerivAt (fun h => p.L - VF / p.W - h / p.W / p.CB) (-(1 / p.W / p.CB)) HF := by
      have := (((hasDerivAt_id HF).div_const p.W).div_const p.CB).const_sub (p.L - VF / p.W)
      exact this
    have h1 := (((deriv_lg_H VF HF p.W hH).add ((hc.mul hc).const_mul
      (0.5 * (p.CB / p.EA) * p.W))).add hlin).add_const
      (-(0.5 * (p.CB / p.EA) * p.W * ((p.L - VF / p.W) * (p.L - VF / p.W))) + (p.L - VF / p.W) - p.XF)
    refine (h1.congr_deriv ?_).congr_of_eventuallyEq ?_
    · simp only [residSlack, quot1]
      field_simp
      ring
    · filter_upwards with y
      simp only [residSlack, Pi.add_apply, Pi.sub_apply, Pi.mul_apply]
      ring
  · have hc : HasDerivAt (fun v => p.L - v / p.W - HF / p.W / p.CB) (-(1 / p.W)) VF := by
      have := hb.sub_const (HF / p.W / p.CB)
      exact this
    have h1 := (((deriv_lg_V0 VF HF p.W hH).sub (((hb.mul hb).sub (hc.mul hc)).const_mul
      (0.5 * (p.CB / p.EA) * p.W))).add (hb.const_add (p.L / p.EA * HF))).sub_const p.XF
    refine (h1.congr_deriv ?_).congr_of_eventuallyEq ?_
    · simp only [residSlack, quot2]
      field_simp
      ring
    · filter_upwards with y
      simp only [residSlack, Pi.add_apply, Pi.sub_apply, Pi.mul_apply]
      ring

/-! ### The Jacobian is regular -/

theorem regime_seabed (p : Par) (HF VF : ℝ) (hW : p.W ≠ 0) (h : regime p HF VF ≠ .suspended) :
    0 ≤ p.CB ∧ 0 < p.W ∧ VF - p.W * p.L ≤ 0 := by
  unfold regime at h
  split_ifs at h with h1 h2
  · exact absurd rfl h
  all_goals
    push Not at h1
    exact ⟨h1.1, lt_of_le_of_ne h1.2.1 (Ne.symm hW), h1.2.2⟩

theorem regime_slack (p : Par) (HF VF : ℝ) (hH : 0 < HF) (hW : p.W ≠ 0)
    (h : regime p HF VF = .slack) : 0 < p.CB ∧ HF ≤ -p.CB * (VF - p.W * p.L) := by
  obtain ⟨h1, h2, h3⟩ := regime_seabed p HF VF hW (by rw [h]; simp)
  unfold regime at h
  split_ifs at h with h4 h5
  push Not at h5
  refine ⟨lt_of_le_of_ne h1 ?_, h5⟩
  intro hc
  rw [← hc] at h5
  linarith

/-- In every state in which the vertical tension at the fairlead is positive, and for a suspended
line in every state, the equations of Newton's method have one solution. -/
theorem C39_regular (p : Par) (HF VF : ℝ) (hH : 0 < HF) (hW : p.W ≠ 0) (hE : 0 < p.EA)
    (hL : 0 < p.L) (hV : regime p HF VF = .suspended ∨ 0 < VF) :
    0 < DET (resid p HF VF) := by
  have hl : 0 < p.L / p.EA := by positivity
  -- a suspended line
  have hsus : 0 < DET (residSuspended p HF VF) := by
    set v := VF / HF with hv
    set u := (VF - p.W * p.L) / HF with hu
    have hvu : v - u = p.W * p.L / HF := by rw [hv, hu]; ring
    obtain ⟨A, B, C, hA, hC, hAC, e⟩ : ∃ A B C : ℝ, 0 ≤ A ∧ 0 ≤ C ∧ B ^ 2 ≤ A * C ∧
        DET (residSuspended p HF VF) = (A + p.L / p.EA) * (C + p.L / p.EA) - B * B := by
      refine ⟨((lg v - v / sq v) - (lg u - u / sq u)) / p.W, (1 / sq v - 1 / sq u) / p.W,
        (v / sq v - u / sq u) / p.W, ?_, ?_, ?_, ?_⟩
      · rcases lt_or_gt_of_ne hW with h | h
        · apply div_nonneg_of_nonpos _ h.le
          have : v ≤ u := by
            have : p.W * p.L / HF ≤ 0 := div_nonpos_of_nonpos_of_nonneg (by nlinarith) hH.le
            linarith
          have := lg_sub_mono this
          linarith
        · apply div_nonneg _ h.le
          have : u ≤ v := by
            have : 0 ≤ p.W * p.L / HF := by positivity
            linarith
          have := lg_sub_mono this
          linarith
      · rcases lt_or_gt_of_ne hW with h | h
        · apply div_nonneg_of_nonpos _ h.le
          have : v < u := by
            have : p.W * p.L / HF < 0 := div_neg_of_neg_of_pos (by nlinarith) hH
            linarith
          have := div_sq_strictMono this
          linarith
        · apply div_nonneg _ h.le
          have : u < v := by
            have : 0 < p.W * p.L / HF := by positivity
            linarith
          have := div_sq_strictMono this
          linarith
      · have key : (1 / sq v - 1 / sq u) ^ 2 ≤
            ((lg v - v / sq v) - (lg u - u / sq u)) * (v / sq v - u / sq u) := by
          rcases le_total u v with h | h
          · exact compliance_det u v h
          · have := compliance_det v u h
            nlinarith
        rw [div_pow, div_mul_div_comm, ← pow_two p.W]
        exact div_le_div_of_nonneg_right key (sq_nonneg _)
      · simp only [DET, residSuspended, quot1, quot2]
        rw [← hv, ← hu]
        have q1 := quot3 v
        have q2 := quot3 u
        have e1 : (sq v - sq u) / p.W - (v * v / sq v - u * u / sq u) / p.W
            = (1 / sq v - 1 / sq u) / p.W := by
          rw [← q1, ← q2]; ring
        rw [e1]
        ring
    rw [e]
    nlinarith
  -- a line with a part on the seabed
  have hbed : regime p HF VF ≠ .suspended → 0 < VF → ∃ A B C : ℝ, 0 ≤ A ∧ B ≤ 0 ∧ 0 < C ∧
      B ^ 2 ≤ A * C ∧ A = (lg (VF / HF) - VF / HF / sq (VF / HF)) / p.W ∧
      B = (1 / sq (VF / HF) - 1) / p.W ∧ C = (VF / HF / sq (VF / HF)) / p.W := by
    intro hr hV
    obtain ⟨h1, h2, h3⟩ := regime_seabed p HF VF hW hr
    have hv : 0 < VF / HF := by positivity
    refine ⟨_, _, _, ?_, ?_, ?_, ?_, rfl, rfl, rfl⟩
    · apply div_nonneg _ h2.le
      have := lg_sub_mono hv.le
      rw [lg_zero, sq_zero] at this
      linarith
    · apply div_nonpos_of_nonpos_of_nonneg _ h2.le
      have := one_le_sq (VF / HF)
      have h4 : 1 / sq (VF / HF) ≤ 1 := by rw [div_le_one (sq_pos _)]; exact this
      linarith
    · have := sq_pos (VF / HF)
      positivity
    · have key := compliance_det 0 (VF / HF) hv.le
      rw [lg_zero, sq_zero] at key
      rw [div_pow, div_mul_div_comm, ← pow_two p.W]
      refine div_le_div_of_nonneg_right ?_ (sq_nonneg _)
      simpa using key
  unfold resid
  cases hr : regime p HF VF with
  | suspended => exact hsus
  | dragging =>
    have hr' : regime p HF VF ≠ .suspended := by rw [hr]; simp
    have hV' : 0 < VF := by
      rcases hV with h | h
      · exact absurd h hr'
      · exact h
    obtain ⟨h1, h2, h3⟩ := regime_seabed p HF VF hW hr'
    obtain ⟨A, B, C, hA, hB, hC, hAC, eA, eB, eC⟩ := hbed hr' hV'
    have hb : 0 ≤ p.CB / p.EA * (p.L - VF / p.W) := by
      apply mul_nonneg (by positivity)
      have : VF / p.W ≤ p.L := by rw [div_le_iff₀ h2]; linarith
      linarith
    have q := quot3 (VF / HF)
    have e : DET (residDragging p HF VF) = (A + p.L / p.EA) * (C + VF / (p.W * p.EA))
        - (B + p.CB / p.EA * (p.L - VF / p.W)) * B := by
      simp only [DET, residDragging, quot1, quot2]
      rw [eA, eB, eC, show sq (VF / HF) - 1 - VF / HF * (VF / HF) / sq (VF / HF)
        = 1 / sq (VF / HF) - 1 by rw [← q]; ring]
      ring
    simp only
    rw [e]
    have h4 : 0 < VF / (p.W * p.EA) := by positivity
    nlinarith [mul_nonneg hA h4.le, mul_nonneg hb (neg_nonneg.2 hB), mul_pos hl h4, mul_pos hl hC]
  | slack =>
    have hr' : regime p HF VF ≠ .suspended := by rw [hr]; simp
    have hV' : 0 < VF := by
      rcases hV with h | h
      · exact absurd h hr'
      · exact h
    obtain ⟨h1, h2, h3⟩ := regime_seabed p HF VF hW hr'
    obtain ⟨h5, h6⟩ := regime_slack p HF VF hH hW hr
    obtain ⟨A, B, C, hA, hB, hC, hAC, eA, eB, eC⟩ := hbed hr' hV'
    have q := quot3 (VF / HF)
    have e : DET (residSlack p HF VF) = (A + (VF / p.W + HF / p.W / p.CB) / p.EA)
        * (C + VF / (p.W * p.EA)) - (B + HF / (p.W * p.EA)) * B := by
      simp only [DET, residSlack, quot1, quot2]
      rw [eA, eB, eC, show sq (VF / HF) - 1 - VF / HF * (VF / HF) / sq (VF / HF)
        = 1 / sq (VF / HF) - 1 by rw [← q]; ring]
      ring
    simp only
    rw [e]
    have h4 : 0 < VF / (p.W * p.EA) := by positivity
    have h7 : 0 < (VF / p.W + HF / p.W / p.CB) / p.EA := by positivity
    have h8 : 0 < HF / (p.W * p.EA) := by positivity
    nlinarith [mul_nonneg hA h4.le, mul_nonneg h8.le (neg_nonneg.2 hB), mul_pos h7 h4, mul_pos h7 hC]

/-! ### The ends of the line -/

theorem tension_eq (H V : ℝ) (hH : 0 < H) : Real.sqrt (H * H + V * V) = H * sq (V / H) := by
  unfold sq
  rw [show H * H + V * V = (H * H) * (1 + V / H * (V / H)) by field_simp,
    Real.sqrt_mul (by positivity), Real.sqrt_mul_self hH.le]

/-- The node at arc length zero is the anchor, and its tension is that given for the anchor. -/
theorem C39_first_node (p : Par) (HF VF : ℝ) (hH : 0 < HF) (hW : p.W ≠ 0) :
    node p HF VF 0 = (0, 0, Real.sqrt ((anchor p HF VF).1 * (anchor p HF VF).1
      + (anchor p HF VF).2 * (anchor p HF VF).2)) := by
  unfold node anchor
  cases hr : regime p HF VF with
  | suspended => simp [nodeSuspended]
  | dragging =>
    obtain ⟨h1, h2, h3⟩ := regime_seabed p HF VF hW (by rw [hr]; simp)
    have hb : 0 ≤ p.L - VF / p.W := by
      have : VF / p.W ≤ p.L := by rw [div_le_iff₀ h2]; linarith
      linarith
    have h4 : 0 ≤ HF + p.CB * (VF - p.W * p.L) := by
      unfold regime at hr
      split_ifs at hr with h5 h6
      linarith
    simp only [nodeDragging, if_pos hb, mul_zero, add_zero, Real.sqrt_mul_self h4]
    simp
  | slack =>
    obtain ⟨h1, h2, h3⟩ := regime_seabed p HF VF hW (by rw [hr]; simp)
    obtain ⟨h5, h6⟩ := regime_slack p HF VF hH hW hr
    have hb : 0 ≤ p.L - VF / p.W - HF / p.W / p.CB := by
      have e : p.L - VF / p.W - HF / p.W / p.CB = (-p.CB * (VF - p.W * p.L) - HF) / (p.W * p.CB) := by
        field_simp
        ring
      rw [e]
      apply div_nonneg _ (by positivity)
      linarith
    simp only [nodeSlack, if_pos hb]
    simp

/-- The node at the full length is off the fairlead by the errors of Newton's method, and its
tension is that given for the fairlead. -/
theorem C39_last_node (p : Par) (HF VF : ℝ) (hH : 0 < HF) (hW : p.W ≠ 0) (hE : p.EA ≠ 0)
    (hV : regime p HF VF = .suspended ∨ 0 < VF) :
    node p HF VF p.L = (p.XF + (resid p HF VF).EXF, p.ZF + (resid p HF VF).EZF,
      Real.sqrt (HF * HF + VF * VF)) := by
  unfold node resid
  have hWL : VF - p.W * p.L + p.W * p.L = VF := by ring
  cases hr : regime p HF VF with
  | suspended =>
    simp only [nodeSuspended, residSuspended, hWL, Prod.mk.injEq, and_true]
    constructor <;> ring
  | dragging =>
    have hr' : regime p HF VF ≠ .suspended := by rw [hr]; simp
    have hV' : 0 < VF := by
      rcases hV with h | h
      · exact absurd h hr'
      · exact h
    obtain ⟨h1, h2, h3⟩ := regime_seabed p HF VF hW hr'
    have hb : ¬ p.L ≤ p.L - VF / p.W := by
      have : 0 < VF / p.W := by positivity
      linarith
    simp only [nodeDragging, residDragging, if_neg hb, hWL, Prod.mk.injEq, and_true]
    constructor
    · field_simp
      ring
    · field_simp
      ring
  | slack =>
    have hr' : regime p HF VF ≠ .suspended := by rw [hr]; simp
    have hV' : 0 < VF := by
      rcases hV with h | h
      · exact absurd h hr'
      · exact h
    obtain ⟨h1, h2, h3⟩ := regime_seabed p HF VF hW hr'
    obtain ⟨h5, h6⟩ := regime_slack p HF VF hH hW hr
    have hb : ¬ p.L ≤ p.L - VF / p.W := by
      have : 0 < VF / p.W := by positivity
      linarith
    have hb2 : ¬ p.L ≤ p.L - VF / p.W - HF / p.W / p.CB := by
      have : 0 < VF / p.W := by positivity
      have : 0 < HF / p.W / p.CB := by positivity
      linarith
    have hC := h5.ne'
    simp only [nodeSlack, residSlack, if_neg hb, if_neg hb2, hWL, Prod.mk.injEq, and_true]
    constructor
    · field_simp
      ring
    · field_simp
      ring

/-! ### Every piece of the line is in equilibrium

The shape is given by the position `X`, `Z` and the tension `T` as functions of the unstretched
arc length.  A hanging element carries a constant horizontal force and a vertical force that
grows by the weight of the line below it; it is stretched by `T / EA` and lies along the force.
An element on the seabed is horizontal, stretched by `T / EA`, and its tension grows by the
friction on it. -/

/-- A hanging element: horizontal force `H`, vertical force `V` at the element. -/
def Hangs (EA H V : ℝ) (X Z T : ℝ → ℝ) (s : ℝ) : Prop :=
  T s = Real.sqrt (H ^ 2 + V ^ 2) ∧ HasDerivAt X ((1 + T s / EA) * (H / T s)) s ∧
  HasDerivAt Z ((1 + T s / EA) * (V / T s)) s

/-- An element on the seabed whose tension grows by `f` per length. -/
def Rests (EA f : ℝ) (X Z T : ℝ → ℝ) (s : ℝ) : Prop :=
  0 ≤ T s ∧ HasDerivAt T f s ∧ HasDerivAt X (1 + T s / EA) s ∧ Z s = 0 ∧ HasDerivAt Z 0 s

/-- The vertical force at arc length `s`: what the fairlead carries less the weight above. -/
def vertical (p : Par) (VF s : ℝ) : ℝ := VF - p.W * (p.L - s)

/-- Arc length at touch down: the suspended part weighs `VF`. -/
noncomputable def touchdown (p : Par) (VF : ℝ) : ℝ := p.L - VF / p.W

theorem hang_deriv (p : Par) (HF VF s c d : ℝ) (hH : 0 < HF) (hW : p.W ≠ 0) (hE : p.EA ≠ 0)
    (X Z T : ℝ → ℝ)
    (hX : ∀ᶠ y in nhds s, X y = lg ((VF - p.W * p.L + p.W * y) / HF) * (HF / p.W)
      + y / p.EA * HF + c)
    (hZ : ∀ᶠ y in nhds s, Z y = sq ((VF - p.W * p.L + p.W * y) / HF) * (HF / p.W)
      + y / p.EA * (VF - p.W * p.L + 0.5 * (p.W * y)) + d)
    (hT : T s = Real.sqrt (HF * HF
      + (VF - p.W * p.L + p.W * s) * (VF - p.W * p.L + p.W * s))) :
    Hangs p.EA HF (vertical p VF s) X Z T s := by
  have hV : VF - p.W * p.L + p.W * s = vertical p VF s := by unfold vertical; ring
  have hT' : T s = HF * sq (vertical p VF s / HF) := by
    rw [hT, hV, tension_eq _ _ hH]
  have hsq := sq_pos (vertical p VF s / HF)
  have h0 : HasDerivAt (fun y => (VF - p.W * p.L + p.W * y) / HF) (p.W / HF) s := by
    have := (((hasDerivAt_id s).const_mul p.W).const_add (VF - p.W * p.L)).div_const HF
    simpa using this
  refine ⟨?_, ?_, ?_⟩
  · rw [hT, hV, pow_two, pow_two]
  · have h1 := ((((hasDerivAt_lg _).comp s h0).mul_const (HF / p.W)).add
      (((hasDerivAt_id s).div_const p.EA).mul_const HF)).add_const c
    refine (h1.congr_deriv ?_).congr_of_eventuallyEq ?_
    · rw [hV, hT']
      field_simp
    · filter_upwards [hX] with y hy
      rw [hy]
      rfl
  · have h2 : HasDerivAt (fun y => y / p.EA * (VF - p.W * p.L + 0.5 * (p.W * y)))
        (vertical p VF s / p.EA) s := by
      have := ((hasDerivAt_id s).div_const p.EA).mul
        ((((hasDerivAt_id s).const_mul p.W).const_mul 0.5).const_add (VF - p.W * p.L))
      refine this.congr_deriv ?_
      simp only [id, vertical]
      field_simp
      ring
    have h1 := ((((hasDerivAt_sq _).comp s h0).mul_const (HF / p.W)).add h2).add_const d
    refine (h1.congr_deriv ?_).congr_of_eventuallyEq ?_
    · rw [hV, hT']
      field_simp
    · filter_upwards [hZ] with y hy
      rw [hy]
      rfl

/-- Every element of the line is in equilibrium.  A suspended line hangs; a line with a part on
the seabed hangs after the touch down, rests with friction before it, and, when friction takes all
the tension, rests without tension before the point at which friction has taken all of it.  The
shape and the tension are continuous. -/
theorem C39_equilibrium (p : Par) (HF VF : ℝ) (hH : 0 < HF) (hW : p.W ≠ 0) (hE : p.EA ≠ 0) :
    let X := fun s => (node p HF VF s).1
    let Z := fun s => (node p HF VF s).2.1
    let T := fun s => (node p HF VF s).2.2
    (Continuous X ∧ Continuous Z ∧ Continuous T) ∧
    match regime p HF VF with
    | .suspended => ∀ s, Hangs p.EA HF (vertical p VF s) X Z T s
    | .dragging =>
      (∀ s, touchdown p VF < s → Hangs p.EA HF (vertical p VF s) X Z T s) ∧
      (∀ s, 0 ≤ s → s < touchdown p VF → Rests p.EA (p.CB * p.W) X Z T s)
    | .slack =>
      (∀ s, touchdown p VF < s → Hangs p.EA HF (vertical p VF s) X Z T s) ∧
      (∀ s, touchdown p VF - HF / (p.CB * p.W) < s → s < touchdown p VF →
        Rests p.EA (p.CB * p.W) X Z T s) ∧
      (∀ s, s < touchdown p VF - HF / (p.CB * p.W) → Rests p.EA 0 X Z T s ∧ T s = 0) := by
  have cl : Continuous lg := continuous_iff_continuousAt.2 fun x => (hasDerivAt_lg x).continuousAt
  have cs : Continuous sq := continuous_iff_continuousAt.2 fun x => (hasDerivAt_sq x).continuousAt
  intro X Z T
  cases hr : regime p HF VF with
  | suspended =>
    have eN : ∀ s, node p HF VF s = nodeSuspended p HF VF s := by intro s; unfold node; rw [hr]
    have eX : X = fun s => (nodeSuspended p HF VF s).1 := funext fun s => by simp only [X, eN]
    have eZ : Z = fun s => (nodeSuspended p HF VF s).2.1 := funext fun s => by simp only [Z, eN]
    have eT : T = fun s => (nodeSuspended p HF VF s).2.2 := funext fun s => by simp only [T, eN]
    rw [eX, eZ, eT]
    simp only [nodeSuspended]
    refine ⟨⟨by fun_prop, by fun_prop, by fun_prop⟩, fun s => ?_⟩
    refine hang_deriv p HF VF s (-(lg ((VF - p.W * p.L) / HF) * (HF / p.W)))
      (-(sq ((VF - p.W * p.L) / HF) * (HF / p.W))) hH hW hE _ _ _ ?_ ?_ rfl
    · filter_upwards with y
      ring
    · filter_upwards with y
      ring
  | dragging =>
    obtain ⟨h1, h2, h3⟩ := regime_seabed p HF VF hW (by rw [hr]; simp)
    have h4 : 0 < HF + p.CB * (VF - p.W * p.L) := by
      unfold regime at hr
      split_ifs at hr with h5 h6
      linarith
    have eN : ∀ s, node p HF VF s = nodeDragging p HF VF s := by intro s; unfold node; rw [hr]
    have eX : X = fun s => if s ≤ p.L - VF / p.W then
        s + s / p.EA * (HF + p.CB * (VF - p.W * p.L) + 0.5 * (p.W * s) * p.CB) else
        lg ((VF - p.W * p.L + p.W * s) / HF) * (HF / p.W) + s / p.EA * HF + (p.L - VF / p.W)
        - 0.5 * p.CB * (VF - p.W * p.L) * (VF - p.W * p.L) / (p.W * p.EA) := by
      funext s; simp only [X, eN, nodeDragging]; split_ifs <;> rfl
    have eZ : Z = fun s => if s ≤ p.L - VF / p.W then 0 else
        (-1 + sq ((VF - p.W * p.L + p.W * s) / HF)) * (HF / p.W)
        + s / p.EA * (VF - p.W * p.L + 0.5 * (p.W * s))
        + 0.5 * (VF - p.W * p.L) * (VF - p.W * p.L) / (p.W * p.EA) := by
      funext s; simp only [Z, eN, nodeDragging]; split_ifs <;> rfl
    have eT : T = fun s => if s ≤ p.L - VF / p.W then HF + p.CB * (VF - p.W * p.L + p.W * s) else
        Real.sqrt (HF * HF + (VF - p.W * p.L + p.W * s) * (VF - p.W * p.L + p.W * s)) := by
      funext s; simp only [T, eN, nodeDragging]; split_ifs <;> rfl
    have hb0 : ∀ s, s = p.L - VF / p.W → VF - p.W * p.L + p.W * s = 0 := by
      intro s hs; rw [hs]; field_simp; ring
    refine ⟨⟨?_, ?_, ?_⟩, ?_, ?_⟩
    · rw [eX]
      refine Continuous.if_le (by fun_prop) (by fun_prop) continuous_id continuous_const ?_
      intro s hs
      rw [hb0 s hs, zero_div, lg_zero]
      rw [hs]
      field_simp
      ring
    · rw [eZ]
      refine Continuous.if_le (by fun_prop) (by fun_prop) continuous_id continuous_const ?_
      intro s hs
      rw [hb0 s hs, zero_div, sq_zero]
      rw [hs]
      field_simp
      ring
    · rw [eT]
      refine Continuous.if_le (by fun_prop) (by fun_prop) continuous_id continuous_const ?_
      intro s hs
      rw [hb0 s hs, mul_zero, mul_zero, add_zero, add_zero, Real.sqrt_mul_self hH.le]
    · intro s hs
      have hn : ∀ᶠ y in nhds s, ¬ y ≤ p.L - VF / p.W := by
        filter_upwards [lt_mem_nhds hs] with y hy
        exact not_le.2 hy
      refine hang_deriv p HF VF s (p.L - VF / p.W
        - 0.5 * p.CB * (VF - p.W * p.L) * (VF - p.W * p.L) / (p.W * p.EA))
        (-(HF / p.W) + 0.5 * (VF - p.W * p.L) * (VF - p.W * p.L) / (p.W * p.EA)) hH hW hE _ _ _ ?_ ?_ ?_
      · filter_upwards [hn] with y hy
        rw [eX]; simp only [if_neg hy]; ring
      · filter_upwards [hn] with y hy
        rw [eZ]; simp only [if_neg hy]; ring
      · have hs' : ¬ s ≤ p.L - VF / p.W := not_le.2 hs
        rw [eT]; simp only [if_neg hs']
    · intro s h0 hs
      have hn : ∀ᶠ y in nhds s, y ≤ p.L - VF / p.W := by
        filter_upwards [gt_mem_nhds hs] with y hy
        exact le_of_lt hy
      have hs' : s ≤ p.L - VF / p.W := le_of_lt hs
      have hTs : T s = HF + p.CB * (VF - p.W * p.L + p.W * s) := by rw [eT]; simp only [if_pos hs']
      refine ⟨?_, ?_, ?_, ?_, ?_⟩
      · rw [hTs]
        have : 0 ≤ p.CB * (p.W * s) := by positivity
        linarith
      · have := ((((hasDerivAt_id s).const_mul p.W).const_add (VF - p.W * p.L)).const_mul p.CB).const_add HF
        refine (this.congr_deriv (by ring)).congr_of_eventuallyEq ?_
        filter_upwards [hn] with y hy
        rw [eT]; simp only [if_pos hy]; rfl
      · have := (hasDerivAt_id s).add (((hasDerivAt_id s).div_const p.EA).mul
          (((((hasDerivAt_id s).const_mul p.W).const_mul 0.5).mul_const p.CB).const_add
          (HF + p.CB * (VF - p.W * p.L))))
        refine (this.congr_deriv ?_).congr_of_eventuallyEq ?_
        · rw [hTs]
          simp only [id]
          field_simp
          ring
        · filter_upwards [hn] with y hy
          rw [eX]; simp only [if_pos hy]; rfl
      · rw [eZ]; simp only [if_pos hs']
      · refine (hasDerivAt_const s (0 : ℝ)).congr_of_eventuallyEq ?_
        filter_upwards [hn] with y hy
        rw [eZ]; simp only [if_pos hy]
  | slack =>
    obtain ⟨h1, h2, h3⟩ := regime_seabed p HF VF hW (by rw [hr]; simp)
    obtain ⟨hC, h6⟩ := regime_slack p HF VF hH hW hr
    have hC0 := hC.ne'
    set M := VF - p.W * p.L with hM
    set b := p.L - VF / p.W with hb
    have hMb : M = -(p.W * b) := by rw [hM, hb]; field_simp; ring
    set h := HF / p.W / p.CB with hh
    have hhp : 0 < h := by rw [hh]; positivity
    have hHh : HF = p.CB * p.W * h := by rw [hh]; field_simp
    have htd : touchdown p VF = b := rfl
    have hh' : HF / (p.CB * p.W) = h := by rw [hh]; field_simp
    rw [htd, hh']
    have eN : ∀ s, node p HF VF s = nodeSlack p HF VF s := by intro s; unfold node; rw [hr]
    have eX : X = fun s => if s ≤ b - h then s else if s ≤ b then
        s - (b - 0.5 * (HF / p.W) / p.CB) * HF / p.EA
        + s / p.EA * (HF + p.CB * M + 0.5 * (p.W * s) * p.CB) + 0.5 * p.CB * M * M / (p.W * p.EA)
        else lg ((M + p.W * s) / HF) * (HF / p.W) + s / p.EA * HF + b
        - (b - 0.5 * (HF / p.W) / p.CB) * HF / p.EA := by
      funext s; simp only [X, eN, nodeSlack]; split_ifs <;> rfl
    have eZ : Z = fun s => if s ≤ b then 0 else
        (-1 + sq ((M + p.W * s) / HF)) * (HF / p.W) + s / p.EA * (M + 0.5 * (p.W * s))
        + 0.5 * M * M / (p.W * p.EA) := by
      funext s; simp only [Z, eN, nodeSlack]; split_ifs with q1 q2 <;> first | rfl | skip
      exact absurd (by linarith) q2
    have eT : T = fun s => if s ≤ b - h then 0 else if s ≤ b then HF + p.CB * (M + p.W * s) else
        Real.sqrt (HF * HF + (M + p.W * s) * (M + p.W * s)) := by
      funext s; simp only [T, eN, nodeSlack]; split_ifs <;> rfl
    have hb0 : ∀ s, s = b → M + p.W * s = 0 := by
      intro s hs; rw [hs, hMb]; ring
    refine ⟨⟨?_, ?_, ?_⟩, ?_, ?_, ?_⟩
    · rw [eX]
      refine Continuous.if_le (by fun_prop) ?_ continuous_id continuous_const ?_
      · refine Continuous.if_le (by fun_prop) (by fun_prop) continuous_id continuous_const ?_
        intro s hs
        rw [hb0 s hs, zero_div, lg_zero, hs, hMb]
        field_simp
        ring
      · intro s hs
        have : s ≤ b := by linarith
        rw [if_pos this, hs, hMb, hHh]
        field_simp
        ring
    · rw [eZ]
      refine Continuous.if_le (by fun_prop) (by fun_prop) continuous_id continuous_const ?_
      intro s hs
      rw [hb0 s hs, zero_div, sq_zero, hs, hMb]
      field_simp
      ring
    · rw [eT]
      refine Continuous.if_le (by fun_prop) ?_ continuous_id continuous_const ?_
      · refine Continuous.if_le (by fun_prop) (by fun_prop) continuous_id continuous_const ?_
        intro s hs
        rw [hb0 s hs, mul_zero, mul_zero, add_zero, add_zero, Real.sqrt_mul_self hH.le]
      · intro s hs
        have : s ≤ b := by linarith
        rw [if_pos this, hs, hMb, hHh]
        ring
    · intro s hs
      have hn : ∀ᶠ y in nhds s, ¬ y ≤ b ∧ ¬ y ≤ b - h := by
        filter_upwards [lt_mem_nhds hs] with y hy
        exact ⟨not_le.2 hy, by linarith⟩
      refine hang_deriv p HF VF s (b - (b - 0.5 * (HF / p.W) / p.CB) * HF / p.EA)
        (-(HF / p.W) + 0.5 * M * M / (p.W * p.EA)) hH hW hE _ _ _ ?_ ?_ ?_
      · filter_upwards [hn] with y hy
        rw [eX]; simp only [if_neg hy.1, if_neg hy.2]; ring
      · filter_upwards [hn] with y hy
        rw [eZ]; simp only [if_neg hy.1]; ring
      · have hs1 : ¬ s ≤ b := not_le.2 hs
        have hs2 : ¬ s ≤ b - h := by linarith
        rw [eT]; simp only [if_neg hs1, if_neg hs2]; rfl
    · intro s h0 hs
      have hn : ∀ᶠ y in nhds s, y ≤ b ∧ ¬ y ≤ b - h := by
        filter_upwards [gt_mem_nhds hs, lt_mem_nhds h0] with y hy hy2
        exact ⟨le_of_lt hy, not_le.2 hy2⟩
      have hs1 : s ≤ b := le_of_lt hs
      have hs2 : ¬ s ≤ b - h := not_le.2 h0
      have hTs : T s = HF + p.CB * (M + p.W * s) := by
        rw [eT]; simp only [if_pos hs1, if_neg hs2]
      refine ⟨?_, ?_, ?_, ?_, ?_⟩
      · rw [hTs, hMb, hHh]
        have : 0 ≤ p.CB * p.W * (s - (b - h)) := by
          apply mul_nonneg (by positivity); linarith
        linarith
      · have := ((((hasDerivAt_id s).const_mul p.W).const_add M).const_mul p.CB).const_add HF
        refine (this.congr_deriv (by ring)).congr_of_eventuallyEq ?_
        filter_upwards [hn] with y hy
        rw [eT]; simp only [if_pos hy.1, if_neg hy.2]; rfl
      · have := ((hasDerivAt_id s).add (((hasDerivAt_id s).div_const p.EA).mul
          (((((hasDerivAt_id s).const_mul p.W).const_mul 0.5).mul_const p.CB).const_add
          (HF + p.CB * M)))).add_const (- ((b - 0.5 * (HF / p.W) / p.CB) * HF / p.EA)
            + 0.5 * p.CB * M * M / (p.W * p.EA))
        refine (this.congr_deriv ?_).congr_of_eventuallyEq ?_
        · rw [hTs]
          simp only [id]
          field_simp
          ring
        · filter_upwards [hn] with y hy
          rw [eX]; simp only [if_pos hy.1, if_neg hy.2, Pi.add_apply, Pi.mul_apply, id]; ring
      · rw [eZ]; simp only [if_pos hs1]
      · refine (hasDerivAt_const s (0 : ℝ)).congr_of_eventuallyEq ?_
        filter_upwards [hn] with y hy
        rw [eZ]; simp only [if_pos hy.1]
    · intro s hs
      have hn : ∀ᶠ y in nhds s, y ≤ b - h := by
        filter_upwards [gt_mem_nhds hs] with y hy
        exact le_of_lt hy
      have hs1 : s ≤ b - h := le_of_lt hs
      have hs2 : s ≤ b := by linarith
      have hTs : T s = 0 := by rw [eT]; simp only [if_pos hs1]
      refine ⟨⟨hTs.ge, ?_, ?_, ?_, ?_⟩, hTs⟩
      · refine (hasDerivAt_const s (0 : ℝ)).congr_of_eventuallyEq ?_
        filter_upwards [hn] with y hy
        rw [eT]; simp only [if_pos hy]
      · rw [hTs]
        refine ((hasDerivAt_id s).congr_deriv (by ring)).congr_of_eventuallyEq ?_
        filter_upwards [hn] with y hy
        rw [eX]; simp only [if_pos hy]; rfl
      · rw [eZ]; simp only [if_pos hs2]
      · refine (hasDerivAt_const s (0 : ℝ)).congr_of_eventuallyEq ?_
        filter_upwards [hn] with y hy
        have : y ≤ b := by linarith
        rw [eZ]; simp only [if_pos this]

end MD.Catenary
