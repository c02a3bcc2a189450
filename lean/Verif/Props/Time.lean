import Verif.Lemmas.Time
import Mathlib.Tactic.Linarith
import Mathlib.Tactic.LinearCombination
import Mathlib.Algebra.Order.Archimedean.Basic
import Mathlib.Data.Rat.Floor

/-!
# Properties C06-C10: time loop and time schemes
-/

set_option linter.unusedSimpArgs false
set_option linter.unusedSectionVars false

namespace MD.Time

variable {K E M : Type} [Field K] [AddCommGroup E] [Module K E]
variable (mc : Machine K E M) (ax : Aux K E)

/-! ## C07 -/

/-- C07 for every scheme but Wilson's: an internal step of length `dt` advances
the simulation time, and the clock used for coupled motions, by exactly `dt`,
whatever the objects do and whatever the number of iterations.  Missing with
respect to C07: `wilson`, see `C07_wilson_advance`. -/
theorem C07_time_advance_partial [CharZero K] (sc : Scheme K) (dt : K) (s : Sim K E M)
    (hw : ∀ iters th, sc ≠ .wilson iters th) :
    (stepOf mc ax sc dt s).t = s.t + dt ∧ (stepOf mc ax sc dt s).tl = s.tl + dt := by
  have h := step_time mc ax sc dt s
  cases sc with
  | wilson iters th => exact absurd rfl (hw iters th)
  | _ => exact h

/-- With Wilson's scheme the simulation time advances `(2θ - 1) dt` instead. -/
theorem C07_wilson_advance [CharZero K] (iters : ℕ) (th dt : K) (s : Sim K E M) :
    (stepOf mc ax (.wilson iters th) dt s).t = s.t + (2 * th - 1) * dt ∧
    (stepOf mc ax (.wilson iters th) dt s).tl = s.tl + dt :=
  step_time mc ax (.wilson iters th) dt s

/-- Hence C07 fails for `wilsonN` (`θ = 1.37`): the clock runs 1.74 times too fast,
in every nonzero step and for every model. -/
theorem C07_wilson_false [CharZero K] (iters : ℕ) (dt : K) (hdt : dt ≠ 0) (s : Sim K E M) :
    (stepOf mc ax (.wilson iters (137 / 100)) dt s).t ≠ s.t + dt := by
  rw [(C07_wilson_advance mc ax iters _ dt s).1]
  intro h
  have h' : (2 * (137 / 100 : K) - 1) * dt = 1 * dt := by rw [one_mul]; exact add_left_cancel h
  have h3 := mul_right_cancel₀ hdt h'
  norm_num at h3

/-! ## C06: the loop of `MoorDyn_Step` -/

section loop
variable {F : Type} [Field F] [LinearOrder F] [IsStrictOrderedRing F] [Archimedean F]
variable {σ ε : Type}

/-- apply the steps in order, stopping at the first error -/
def runSteps (step : F → σ → Except ε σ) : List F → σ → Except ε σ
  | [], s => .ok s
  | h :: hs, s =>
    match step h s with
    | .error e => .error e
    | .ok s' => runSteps step hs s'

theorem runSteps_append (step : F → σ → Except ε σ) (l1 l2 : List F) (s s' : σ)
    (h : runSteps step l1 s = .ok s') : runSteps step (l1 ++ l2) s = runSteps step l2 s' := by
  induction l1 generalizing s with
  | nil => cases h; rfl
  | cons a l ih =>
    simp only [runSteps, List.cons_append] at h ⊢
    split at h
    · cases h
    · exact ih _ h

theorem subLoop_spec (dtM0 : F) (h0 : 0 < dtM0) (step : F → σ → Except ε σ) (s0 : σ) (dt : F)
    (fuel : ℕ) (target : F) (s : σ) (done : List F) (ht : 0 ≤ target)
    (hfuel : target ≤ fuel * dtM0)
    (hdone : ∀ h ∈ done, 0 < h ∧ h ≤ dtM0) (hsum : done.sum + target = dt)
    (hrun : runSteps step done.reverse s0 = .ok s) :
    ∃ r hs, subLoop dtM0 step fuel target s done = some (r, hs) ∧
      (∀ h ∈ hs, 0 < h ∧ h ≤ dtM0) ∧
      (∀ s', r = .ok s' → hs.sum = dt ∧ runSteps step hs.reverse s0 = .ok s') ∧
      (∀ e, r = .error e → hs.sum < dt ∧ ∃ h, 0 < h ∧ h ≤ dtM0 ∧
        runSteps step (hs.reverse ++ [h]) s0 = .error e) := by
  induction fuel generalizing target s done with
  | zero =>
    have : target = 0 := le_antisymm (by simpa using hfuel) ht
    subst this
    refine ⟨.ok s, done, by simp [subLoop], hdone, ?_, ?_⟩
    · rintro s' h
      cases h
      exact ⟨by simpa using hsum, hrun⟩
    · rintro e h; cases h
  | succ f ih =>
    by_cases hpos : target > 0
    · unfold subLoop
      simp only [if_pos hpos]
      set h := (if dtM0 < target then dtM0 else target) with hh
      have hhpos : 0 < h := by rw [hh]; split <;> assumption
      have hhle : h ≤ dtM0 := by rw [hh]; split <;> [exact le_refl _; (rename_i hn; exact not_lt.mp hn)]
      have hhle' : h ≤ target := by rw [hh]; split <;> [(rename_i hn; exact hn.le); exact le_refl _]
      cases hst : step h s with
      | error e =>
        refine ⟨.error e, done, rfl, hdone, ?_, ?_⟩
        · rintro s' h; cases h
        · rintro e' h'
          cases h'
          refine ⟨by linarith, h, hhpos, hhle, ?_⟩
          rw [runSteps_append step _ _ _ _ hrun]
          simp [runSteps, hst]
      | ok s' =>
        apply ih (target - h) s' (h :: done) (by linarith)
        · by_cases hlt : dtM0 < target
          · have : h = dtM0 := by rw [hh, if_pos hlt]
            rw [this]
            push_cast at hfuel
            linarith
          · have : h = target := by rw [hh, if_neg hlt]
            rw [this]
            have : (0 : F) ≤ (f : F) * dtM0 := mul_nonneg (by positivity) h0.le
            linarith
        · intro a ha
          rcases List.mem_cons.mp ha with rfl | ha
          · exact ⟨hhpos, hhle⟩
          · exact hdone a ha
        · simp only [List.sum_cons]; linarith
        · rw [List.reverse_cons, runSteps_append step _ _ _ _ hrun]
          simp [runSteps, hst]
    · have : target = 0 := le_antisymm (not_lt.mp hpos) ht
      subst this
      refine ⟨.ok s, done, by simp [subLoop], hdone, ?_, ?_⟩
      · rintro s' h
        cases h
        exact ⟨by simpa using hsum, hrun⟩
      · rintro e h; cases h

/-- C06: with positive `dt` and a positive internal time step the loop stops, and
if it succeeds the internal steps are positive, none is longer than the internal
time step, they add up to exactly `dt` and the final state is the result of doing
them in order; if an internal step fails, that error is returned. -/
theorem C06_step_integrates_dt (dtM0 : F) (h0 : 0 < dtM0) (nxt : σ → σ)
    (step : F → σ → Except ε σ) (dt : F) (hdt : 0 < dt) (s : σ) :
    ∃ fuel r hs, outerStep dtM0 nxt step fuel dt s = some (r, hs) ∧
      (∀ h ∈ hs, 0 < h ∧ h ≤ dtM0) ∧
      (∀ s', r = .ok s' → hs.sum = dt ∧ runSteps step hs.reverse (nxt s) = .ok s') ∧
      (∀ e, r = .error e → hs.sum < dt ∧ ∃ h, 0 < h ∧ h ≤ dtM0 ∧
        runSteps step (hs.reverse ++ [h]) (nxt s) = .error e) := by
  obtain ⟨n, hn⟩ := Archimedean.arch dt h0
  refine ⟨n, ?_⟩
  unfold outerStep
  rw [if_neg (not_le.mpr hdt)]
  exact subLoop_spec dtM0 h0 step (nxt s) dt n dt (nxt s) [] hdt.le (by simpa [nsmul_eq_mul] using hn)
    (by simp) (by simp) rfl

/-- C06, `dt ≤ 0`: nothing is integrated. -/
theorem C06_nonpositive_dt (dtM0 : F) (nxt : σ → σ) (step : F → σ → Except ε σ) (fuel : ℕ)
    (dt : F) (hdt : dt ≤ 0) (s : σ) :
    outerStep dtM0 nxt step fuel dt s = some (.ok s, []) := by
  unfold outerStep; rw [if_pos hdt]

/-- The result does not depend on the fuel. -/
theorem C06_fuel_irrelevant (dtM0 : F) (step : F → σ → Except ε σ) (f1 f2 : ℕ) (target : F)
    (s : σ) (done : List F) (r1 r2 : Except ε σ × List F)
    (h1 : subLoop dtM0 step f1 target s done = some r1)
    (h2 : subLoop dtM0 step f2 target s done = some r2) : r1 = r2 := by
  induction f1 generalizing f2 target s done with
  | zero =>
    unfold subLoop at h1 h2
    by_cases hp : target > 0
    · simp [if_pos hp] at h1
    · rw [if_neg hp] at h1 h2
      exact Option.some.inj (h1.symm.trans h2)
  | succ f ih =>
    unfold subLoop at h1 h2
    by_cases hp : target > 0
    · rw [if_pos hp] at h1 h2
      cases f2 with
      | zero => simp at h2
      | succ g =>
        simp only at h1 h2
        split at h1
        · rename_i e he
          rw [he] at h2
          exact Option.some.inj (h1.symm.trans h2)
        · rename_i s' he
          rw [he] at h2
          exact ih g _ _ _ h1 h2
    · rw [if_neg hp] at h1 h2
      exact Option.some.inj (h1.symm.trans h2)

/-- Without a positive internal time step the call never returns (nothing in the
code prevents `dtM <= 0` in the input file): the hypothesis of C06 is needed. -/
theorem C06_nonpositive_limit_hangs (dtM0 : F) (h0 : dtM0 ≤ 0) (nxt : σ → σ)
    (step : F → σ → Except ε σ) (hstep : ∀ h s, ∃ s', step h s = .ok s') (fuel : ℕ)
    (dt : F) (hdt : 0 < dt) (s : σ) :
    outerStep dtM0 nxt step fuel dt s = none := by
  unfold outerStep
  rw [if_neg (not_le.mpr hdt)]
  suffices ∀ (fuel : ℕ) (target : F) (s : σ) (done : List F), 0 < target →
      subLoop dtM0 step fuel target s done = none from this _ _ _ _ hdt
  intro fuel
  induction fuel with
  | zero => intro target s done ht; unfold subLoop; rw [if_pos ht]
  | succ f ih =>
    intro target s done ht
    unfold subLoop
    rw [if_pos ht]
    have hlt : dtM0 < target := lt_of_le_of_lt h0 ht
    simp only [if_pos hlt]
    obtain ⟨s', hs'⟩ := hstep dtM0 s
    rw [hs']
    exact ih _ _ _ (by linarith)

end loop

/-- C06, the clock of the coupled motion: with every scheme it ends at exactly `dt`, whatever it was before. -/
theorem C06_clock {F : Type} [Field F] [LinearOrder F] [IsStrictOrderedRing F]
    [Archimedean F] {E M : Type} [AddCommGroup E] [Module F E]
    (mc : Machine F E M) (ax : Aux F E) (sc : Scheme F)
    (dtM0 : F) (h0 : 0 < dtM0) (dt : F) (hdt : 0 < dt) (s : Sim F E M) :
    ∃ fuel s' hs, outerStep (ε := Empty) dtM0 (next mc) (fun h s => .ok (stepOf mc ax sc h s))
        fuel dt s = some (.ok s', hs) ∧ s'.tl = dt := by
  obtain ⟨fuel, r, hs, h1, -, h3, -⟩ := C06_step_integrates_dt (ε := Empty) dtM0 h0 (next mc)
    (fun h s => .ok (stepOf mc ax sc h s)) dt hdt s
  cases r with
  | error e => exact e.elim
  | ok s' =>
    refine ⟨fuel, s', hs, h1, ?_⟩
    obtain ⟨hsum, hrun⟩ := h3 s' rfl
    have key : ∀ (l : List F) (a b : Sim F E M),
        runSteps (ε := Empty) (fun h s => .ok (stepOf mc ax sc h s)) l a = .ok b → b.tl = a.tl + l.sum := by
      intro l
      induction l with
      | nil => intro a b h; cases h; simp
      | cons h l ih =>
        intro a b hr
        simp only [runSteps] at hr
        have := ih _ _ hr
        rw [(step_time mc ax sc h a).2] at this
        simp only [List.sum_cons]
        rw [this]
        ring
    have := key _ _ _ hrun
    rw [List.sum_reverse, hsum] at this
    simpa [next] using this

/-- C06 and C07 together: a successful `MoorDyn_Step` of `dt` with a scheme other
than Wilson's advances the simulation time by exactly `dt`, and the clock of the
coupled motion ends at exactly `dt`. -/
theorem C07_total_time_partial {F : Type} [Field F] [LinearOrder F] [IsStrictOrderedRing F]
    [Archimedean F] {E M : Type} [AddCommGroup E] [Module F E]
    (mc : Machine F E M) (ax : Aux F E) (sc : Scheme F) (hw : ∀ iters th, sc ≠ .wilson iters th)
    (dtM0 : F) (h0 : 0 < dtM0) (dt : F) (hdt : 0 < dt) (s : Sim F E M) :
    ∃ fuel s' hs, outerStep (ε := Empty) dtM0 (next mc) (fun h s => .ok (stepOf mc ax sc h s))
        fuel dt s = some (.ok s', hs) ∧ s'.t = s.t + dt ∧ s'.tl = dt := by
  obtain ⟨fuel, r, hs, h1, -, h3, -⟩ := C06_step_integrates_dt (ε := Empty) dtM0 h0 (next mc)
    (fun h s => .ok (stepOf mc ax sc h s)) dt hdt s
  cases r with
  | error e => exact e.elim
  | ok s' =>
    refine ⟨fuel, s', hs, h1, ?_⟩
    obtain ⟨hsum, hrun⟩ := h3 s' rfl
    have key : ∀ (l : List F) (a b : Sim F E M),
        runSteps (ε := Empty) (fun h s => .ok (stepOf mc ax sc h s)) l a = .ok b →
        b.t = a.t + l.sum ∧ b.tl = a.tl + l.sum := by
      intro l
      induction l with
      | nil => intro a b h; cases h; simp
      | cons h l ih =>
        intro a b hr
        simp only [runSteps] at hr
        have := ih _ _ hr
        have hst := C07_time_advance_partial mc ax sc h a hw
        rw [hst.1, hst.2] at this
        simp only [List.sum_cons]
        exact ⟨by rw [this.1]; ring, by rw [this.2]; ring⟩
    have := key _ _ _ hrun
    rw [List.sum_reverse, hsum] at this
    exact ⟨by simpa [next] using this.1, by simpa [next] using this.2⟩

/-- non-vacuity of C06: `dt = 1`, internal limit `0.4` gives the steps
`0.4, 0.4, 0.2` (latest first in the list). -/
example : outerStep (σ := ℚ) (ε := Empty) (2 / 5) id (fun h s => .ok (s + h)) 4 1 0
    = some (.ok 1, [1 / 5, 2 / 5, 2 / 5]) := by
  norm_num [outerStep, subLoop]

/-- a machine without objects whose derivative is the constant 3 -/
def constMachine : Machine ℚ ℚ Unit := ⟨fun _ _ _ _ => (), fun _ => (3, ()), fun _ => ()⟩

/-- non-vacuity of C07: one RK4 step of `1/2` from time 7 -/
example (ax : Aux ℚ ℚ) : (stepOf constMachine ax .rk4 (1 / 2) ⟨7, 0, fun _ => 0, fun _ => 0, 0, ()⟩).t
    = 15 / 2 := by
  rw [(C07_time_advance_partial constMachine ax .rk4 (1 / 2) _ (by simp)).1]; norm_num

end MD.Time
