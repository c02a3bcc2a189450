/-
C39: the Newton loop of the catenary solver (source/QSlines.hpp): termination, positive
tension, what success means for the errors at the fairlead, and what it does not mean.
-/
import Verif.Model.Catenary
import Mathlib.Tactic.Linarith
import Mathlib.Tactic.Ring
import Mathlib.Tactic.FieldSimp
import Mathlib.Tactic.NormNum
import Mathlib.Tactic.Positivity

namespace MD.Catenary

/-! ### Termination -/

/-- Passes left: those of this round and, before the restart, those of the second one. -/
noncomputable def left (p : Par) (it : It) : ℕ := (maxIter p + 1 - it.I) + if it.first then maxIter p else 0

theorem pass_decreases (p : Par) (it it' : It) (h1 : 1 ≤ it.I) (hm : it.I ≤ maxIter p)
    (h : pass p it = .next it') : left p it' < left p it ∧ 1 ≤ it'.I := by
  unfold pass at h
  split_ifs at h with h2 h3 h4 h5
  · simp only [Pass.next.injEq] at h
    subst h
    simp only [left, h4.2, if_true, Bool.false_eq_true, if_false]
    omega
  · simp only [Pass.next.injEq] at h
    subst h
    have : it.I ≠ maxIter p := by
      intro hc
      rcases hb : it.first with _ | _
      · exact h5 ⟨hc, hb⟩
      · exact h4 ⟨hc, hb⟩
    simp only [left]
    omega

theorem loop_unfinished (p : Par) : ∀ (fuel : ℕ) (it : It), 1 ≤ it.I → left p it ≤ fuel →
    loop p fuel it ≠ .unfinished := by
  intro fuel
  induction fuel with
  | zero =>
    intro it h1 hl
    simp only [loop]
    split_ifs with h
    · exfalso
      simp only [left] at hl
      omega
    · simp
  | succ n ih =>
    intro it h1 hl
    simp only [loop]
    split_ifs with h
    · cases hp : pass p it with
      | next it' =>
        obtain ⟨hd, hi⟩ := pass_decreases p it it' h1 h hp
        exact ih it' hi (by omega)
      | converged it' => simp
      | failed => simp
      | undefined => simp
    · simp

/-- The solver always answers, after at most twice `1 / Tol` iterations, whatever the geometry,
the stiffness, the weight, the friction and the tolerance (also with vanishing or negative
values). -/
theorem C39_terminates (p : Par) (s : List ℝ) (fuel : ℕ) (hf : 2 * ⌊1 / p.Tol⌋₊ ≤ fuel) :
    catenary p s fuel ≠ .unfinished := by
  have hT : (clamp (upright p)).Tol = p.Tol := by
    unfold upright clamp; split_ifs <;> rfl
  have hl := loop_unfinished (clamp (upright p)) fuel (start (upright p)) (by simp [start])
    (by simp only [left, start, maxIter, hT, if_true]; omega)
  unfold catenary
  simp only
  by_cases h1 : p.W = 0 ∨ p.EA = 0 ∨ p.Tol ≤ 0 ∨ 2 ^ 32 ≤ 1 / p.Tol
  · rw [if_pos h1]; simp
  rw [if_neg h1]
  by_cases h2 : tooLong (upright p)
  · rw [if_pos h2]; simp
  · rw [if_neg h2]
    cases h : loop (clamp (upright p)) fuel (start (upright p)) with
    | converged it =>
      simp only
      cases nodes (clamp (upright p)) it.HF it.VF s <;> simp
    | failed => simp
    | undefined => simp
    | ranOut => simp
    | unfinished => exact absurd h hl

/-- More passes than needed change nothing. -/
theorem loop_fuel (p : Par) : ∀ (fuel : ℕ) (it : It), loop p fuel it ≠ .unfinished →
    loop p (fuel + 1) it = loop p fuel it := by
  intro fuel
  induction fuel with
  | zero =>
    intro it h
    simp only [loop] at h ⊢
    split_ifs at h ⊢ with h1
    · exact absurd rfl h
    · rfl
  | succ n ih =>
    intro it h
    rw [loop]
    conv_rhs => rw [loop]
    rw [loop] at h
    split_ifs at h ⊢ with h1
    · cases hp : pass p it with
      | next it' =>
        simp only [hp] at h ⊢
        exact ih it' h
      | converged it' => rfl
      | failed => rfl
      | undefined => rfl
    · rfl

/-! ### The loop keeps the horizontal tension positive -/

theorem pass_pos (p : Par) (hT : 0 < p.Tol) (it it' : It) (h : pass p it = .next it')
    (hH : 0 < it.HF) : 0 < it'.HF := by
  unfold pass at h
  split_ifs at h with h2 h3 h4 h5
  · simp only [Pass.next.injEq] at h
    subst h
    exact lt_max_of_lt_right hT
  · simp only [Pass.next.injEq] at h
    subst h
    have : (p.Tol - 1) * it.HF ≤ dHF p it := le_max_right _ _
    have h6 : 0 < p.Tol * it.HF := by positivity
    simp only
    linarith

/-- Where the loop stops: a pass with positive horizontal tension which satisfies the test, with
the counter between one and the maximum. -/
theorem loop_converged (p : Par) (hT : 0 < p.Tol) : ∀ (fuel : ℕ) (it out : It), 1 ≤ it.I →
    0 < it.HF → loop p fuel it = .converged out →
    0 < out.HF ∧ 1 ≤ out.I ∧ out.I ≤ maxIter p ∧ DET (resid p out.HF out.VF) ≠ 0 ∧
    |dHF p out| ≤ |p.Tol * out.HF| ∧ |dVF p out| ≤ |p.Tol * out.VF| := by
  intro fuel
  induction fuel with
  | zero =>
    intro it out h1 hH h
    simp only [loop] at h
    split_ifs at h
  | succ n ih =>
    intro it out h1 hH h
    simp only [loop] at h
    split_ifs at h with h2
    cases hp : pass p it with
    | next it' =>
      simp only [hp] at h
      exact ih it' out (pass_decreases p it it' h1 h2 hp).2 (pass_pos p hT it it' hp hH) h
    | converged it' =>
      simp only [hp, Ending.converged.injEq] at h
      subst h
      unfold pass at hp
      split_ifs at hp with h3 h4 h5 h6
      simp only [Pass.converged.injEq] at hp
      subst hp
      exact ⟨hH, h1, h2, h3, h4.1, h4.2⟩
    | failed => simp only [hp] at h; exact absurd h (by simp)
    | undefined => simp only [hp] at h; exact absurd h (by simp)

/-- What a successful answer is made of. -/
theorem ok_iff (p : Par) (s : List ℝ) (fuel : ℕ) (sh : Shape) (h : catenary p s fuel = .ok sh) :
    ∃ it l, loop (clamp (upright p)) fuel (start (upright p)) = .converged it ∧
      nodes (clamp (upright p)) it.HF it.VF s = some l ∧
      sh.HF = it.HF ∧ sh.VF = it.VF ∧ sh.HA = (anchor (clamp (upright p)) it.HF it.VF).1 ∧
      sh.VA = (anchor (clamp (upright p)) it.HF it.VF).2 ∧
      sh.nodes = (if p.ZF < 0 then unreverse (clamp (upright p)) l else l) ∧
      p.W ≠ 0 ∧ p.EA ≠ 0 ∧ 0 < p.Tol ∧ ¬ tooLong (upright p) := by
  unfold catenary at h
  simp only at h
  by_cases h1 : p.W = 0 ∨ p.EA = 0 ∨ p.Tol ≤ 0 ∨ 2 ^ 32 ≤ 1 / p.Tol
  · rw [if_pos h1] at h; simp at h
  rw [if_neg h1] at h
  by_cases h2 : tooLong (upright p)
  · rw [if_pos h2] at h; simp at h
  · rw [if_neg h2] at h
    cases hl : loop (clamp (upright p)) fuel (start (upright p)) with
    | converged it =>
      simp only [hl] at h
      cases hn : nodes (clamp (upright p)) it.HF it.VF s with
      | none => simp [hn] at h
      | some l =>
        simp only [hn, Outcome.ok.injEq] at h
        subst h
        push Not at h1
        exact ⟨it, l, rfl, hn, rfl, rfl, rfl, rfl, rfl, h1.1, h1.2.1, h1.2.2.1, h2⟩
    | failed => simp [hl] at h
    | undefined => simp [hl] at h
    | ranOut => simp [hl] at h
    | unfinished => simp [hl] at h

/-- A successful answer has a positive horizontal tension at the fairlead, and one that is not
negative at the anchor. -/
theorem C39_positive_tension (p : Par) (s : List ℝ) (fuel : ℕ) (sh : Shape)
    (h : catenary p s fuel = .ok sh) : 0 < sh.HF ∧ 0 ≤ sh.HA := by
  obtain ⟨it, l, hl, hn, e1, e2, e3, e4, e5, hW, hE, hT, hlong⟩ := ok_iff p s fuel sh h
  have hTc : (clamp (upright p)).Tol = p.Tol := by
    unfold upright clamp; split_ifs <;> rfl
  have hTu : (upright p).Tol = p.Tol := by
    unfold upright; split_ifs <;> rfl
  have hs : 0 < (start (upright p)).HF := lt_max_of_lt_right (by rw [hTu]; exact hT)
  have hp := (loop_converged _ (by rw [hTc]; exact hT) fuel _ it (by simp [start]) hs hl).1
  refine ⟨by rw [e1]; exact hp, ?_⟩
  rw [e3]
  unfold anchor regime
  split_ifs with h1 h2
  · exact hp.le
  · simp only
    linarith
  · simp

/-! ### What convergence means -/

/-- Newton's increments undone: the errors at the fairlead are the Jacobian times the increments. -/
theorem newton (R : Resid) (hD : DET R ≠ 0) :
    let a := (-R.dZFdVF * R.EXF + R.dXFdVF * R.EZF) / DET R
    let b := (R.dZFdHF * R.EXF - R.dXFdHF * R.EZF) / DET R
    R.dXFdHF * a + R.dXFdVF * b = -R.EXF ∧ R.dZFdHF * a + R.dZFdVF * b = -R.EZF := by
  constructor
  · field_simp
    unfold DET
    ring
  · field_simp
    unfold DET
    ring

/-- When the test is met at iteration `I`, the errors at the fairlead are bounded by the
tolerance times the sensitivities of the span to the tensions, loosened by the factor
`1 / (1 - Tol I)` because the test looks at the damped increments. -/
theorem converged_errors (p : Par) (hT : 0 < p.Tol) (hT2 : p.Tol < 1 / 2) (it : It)
    (hH : 0 < it.HF) (hI : p.Tol * it.I < 1) (hD : DET (resid p it.HF it.VF) ≠ 0)
    (h1 : |dHF p it| ≤ |p.Tol * it.HF|) (h2 : |dVF p it| ≤ |p.Tol * it.VF|) :
    |(resid p it.HF it.VF).EXF| * (1 - p.Tol * it.I) ≤ p.Tol *
      (|(resid p it.HF it.VF).dXFdHF| * it.HF + |(resid p it.HF it.VF).dXFdVF| * |it.VF|) ∧
    |(resid p it.HF it.VF).EZF| * (1 - p.Tol * it.I) ≤ p.Tol *
      (|(resid p it.HF it.VF).dZFdHF| * it.HF + |(resid p it.HF it.VF).dZFdVF| * |it.VF|) := by
  set R := resid p it.HF it.VF with hR
  obtain ⟨n1, n2⟩ := newton R hD
  set a := (-R.dZFdVF * R.EXF + R.dXFdVF * R.EZF) / DET R with ha
  set b := (R.dZFdHF * R.EXF - R.dXFdHF * R.EZF) / DET R with hb
  have hk : 0 < 1 - p.Tol * it.I := by linarith
  have hda : dHF p it = max (a * (1 - p.Tol * it.I)) ((p.Tol - 1) * it.HF) := rfl
  have hdb : dVF p it = b * (1 - p.Tol * it.I) := rfl
  have hTH : |p.Tol * it.HF| = p.Tol * it.HF := abs_of_pos (by positivity)
  have hTV : |p.Tol * it.VF| = p.Tol * |it.VF| := by rw [abs_mul, abs_of_pos hT]
  rw [hTH] at h1
  rw [hTV, hdb] at h2
  have hlim : (p.Tol - 1) * it.HF < -(p.Tol * it.HF) := by nlinarith
  have hda' : dHF p it = a * (1 - p.Tol * it.I) := by
    rw [hda]
    apply max_eq_left
    by_contra hc
    push Not at hc
    rw [hda, max_eq_right hc.le] at h1
    have := (abs_le.1 h1).1
    linarith
  rw [hda'] at h1
  have key : ∀ x y E : ℝ, x * a + y * b = -E → |E| * (1 - p.Tol * it.I) ≤
      p.Tol * (|x| * it.HF + |y| * |it.VF|) := by
    intro x y E h
    have h3 : |E| * (1 - p.Tol * it.I) = |x * (a * (1 - p.Tol * it.I)) + y * (b * (1 - p.Tol * it.I))| := by
      rw [show x * (a * (1 - p.Tol * it.I)) + y * (b * (1 - p.Tol * it.I))
        = (-E) * (1 - p.Tol * it.I) by rw [← h]; ring, abs_mul, abs_neg, abs_of_pos hk]
    rw [h3]
    refine (abs_add_le _ _).trans ?_
    rw [abs_mul x, abs_mul y]
    have h4 := mul_le_mul_of_nonneg_left h1 (abs_nonneg x)
    have h5 := mul_le_mul_of_nonneg_left h2 (abs_nonneg y)
    linarith
  exact ⟨key _ _ _ n1, key _ _ _ n2⟩

theorem loop_not_failed (p : Par) (n : ℕ) (hn : 1 ≤ n) (hT : p.Tol = 1 / n)
    (hT1 : p.Tol ≤ 1) : ∀ (fuel : ℕ) (it : It), 0 < it.HF → it.I ≤ n →
    loop p fuel it ≠ .failed := by
  have hn0 : (0 : ℝ) < n := by exact_mod_cast hn
  have hTp : 0 < p.Tol := by rw [hT]; positivity
  have hmax : maxIter p = n := by
    unfold maxIter
    rw [hT, one_div_one_div, Nat.floor_natCast]
  have hlast : ∀ it : It, 0 < it.HF → it.I = n → pass p it = .undefined ∨
      pass p it = .converged it := by
    intro it hH hI
    have hz : 1 - p.Tol * it.I = 0 := by
      rw [hI, hT]; field_simp; norm_num
    have ha : dHF p it = 0 := by
      unfold dHF
      simp only
      rw [hz, mul_zero]
      apply max_eq_left
      nlinarith
    have hb : dVF p it = 0 := by
      unfold dVF
      simp only
      rw [hz, mul_zero]
    unfold pass
    split_ifs with h1 h2 h3 h4
    · exact Or.inl rfl
    · exact Or.inr rfl
    all_goals
      exfalso
      apply h2
      rw [ha, hb, abs_zero]
      exact ⟨abs_nonneg _, abs_nonneg _⟩
  intro fuel
  induction fuel with
  | zero =>
    intro it hH hI
    simp only [loop]
    split_ifs <;> simp
  | succ m ih =>
    intro it hH hI
    simp only [loop]
    split_ifs with h
    · cases hp : pass p it with
      | next it' =>
        have hne : it.I ≠ n := by
          intro hc
          rcases hlast it hH hc with h1 | h1 <;> rw [h1] at hp <;> simp at hp
        refine ih it' (pass_pos p hTp it it' hp hH) ?_
        unfold pass at hp
        split_ifs at hp with h1 h2 h3 h4
        · simp only [Pass.next.injEq] at hp
          subst hp
          exact hn
        · simp only [Pass.next.injEq] at hp
          subst hp
          simp only
          omega
      | converged it' => simp
      | failed =>
        exfalso
        have hp0 := hp
        unfold pass at hp
        split_ifs at hp with h1 h2 h3 h4
        rw [hmax] at h4
        rcases hlast it hH h4.1 with h5 | h5 <;> rw [hp0] at h5 <;> simp at h5
      | undefined => simp
    · simp

theorem upright_fields (p : Par) : (upright p).XF = p.XF ∧ (upright p).L = p.L ∧
    (upright p).EA = p.EA ∧ (upright p).W = p.W ∧ (upright p).CB = p.CB ∧
    (upright p).Tol = p.Tol ∧ (upright p).ZF = |p.ZF| := by
  unfold upright
  split_ifs with h
  · exact ⟨rfl, rfl, rfl, rfl, rfl, rfl, (abs_of_neg h).symm⟩
  · exact ⟨rfl, rfl, rfl, rfl, rfl, rfl, (abs_of_nonneg (not_lt.1 h)).symm⟩

/-- With a tolerance whose inverse is a whole number the solver never reports that it could not
converge: the increments are multiplied by `1 - Tol I`, which is zero in the last iteration
allowed, so that the test is met whatever the errors.  It only fails for a line that is too long
over the seabed. -/
theorem C39_nonconvergence_never_reported (p : Par) (s : List ℝ) (fuel n : ℕ) (hn : 1 ≤ n)
    (hT : p.Tol = 1 / n) (hs : ∀ x ∈ s, 0 ≤ x ∧ x ≤ p.L) (hlong : ¬ tooLong (upright p)) :
    catenary p s fuel ≠ .fail := by
  obtain ⟨u1, u2, u3, u4, u5, u6, u7⟩ := upright_fields p
  have hn0 : (0 : ℝ) < n := by exact_mod_cast hn
  have hTp : 0 < p.Tol := by rw [hT]; positivity
  have hT1 : p.Tol ≤ 1 := by
    rw [hT, div_le_one hn0]; exact_mod_cast hn
  have hl := loop_not_failed (clamp (upright p)) n hn (by simp [clamp, u6, hT])
    (by simp [clamp, u6, hT1]) fuel (start (upright p))
    (lt_max_of_lt_right (by rw [u6]; exact hTp)) hn
  unfold catenary
  simp only
  by_cases h1 : p.W = 0 ∨ p.EA = 0 ∨ p.Tol ≤ 0 ∨ 2 ^ 32 ≤ 1 / p.Tol
  · rw [if_pos h1]; simp
  rw [if_neg h1, if_neg hlong]
  cases h : loop (clamp (upright p)) fuel (start (upright p)) with
  | converged it =>
    have hc : ¬ ∃ x ∈ s, x < 0 ∨ (clamp (upright p)).L < x := by
      rintro ⟨x, hx, h2⟩
      have := hs x hx
      simp only [clamp, u2] at h2
      rcases h2 with h2 | h2 <;> linarith
    simp only [nodes, if_neg hc]
    simp
  | failed => exact absurd h hl
  | undefined => simp
  | ranOut => simp
  | unfinished => simp

end MD.Catenary
