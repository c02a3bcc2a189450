import Verif.Props.Schemes
import Verif.Model.Stationary
import Verif.Model.Rotation
import Mathlib.Algebra.Order.Archimedean.Basic
import Mathlib.Data.Rat.Floor
import Mathlib.Tactic.Linarith
import Mathlib.Tactic.Ring
import Mathlib.Tactic.Module
import Mathlib.Tactic.FieldSimp
import Mathlib.Tactic.LinearCombination

/-!
# C10 (stationary solver) and C81: the stationary solver of the initial condition
-/

set_option linter.unusedSimpArgs false
set_option linter.unusedVariables false
set_option linter.unusedSectionVars false

namespace MD.Time

section
variable {K E M ε : Type} [Field K] [LinearOrder K] [AddCommGroup E] [Module K E]
variable (mc : Machine K E M) (mk : K → E → K × E) (lims : K → List K)

/-- The state and the rates after `statEval`. -/
theorem statEval_r (dt : K) (s : Sim K E M) : (statEval mc mk dt s).2.r = s.r := rfl

theorem statEval_rd (dt : K) (s : Sim K E M) :
    (statEval mc mk dt s).2.rd 0 =
      (mk dt (mc.eval (mc.update s.t (s.tl + 0) (s.r 0) s.m)).1).2 := by
  simp [statEval, setRd, clc, upd]

theorem statEval_err (dt : K) (s : Sim K E M) :
    (statEval mc mk dt s).1 =
      (mk dt (mc.eval (mc.update s.t (s.tl + 0) (s.r 0) s.m)).1).1 := by
  simp [statEval, setRd, clc, upd]

theorem statEval_t (dt : K) (s : Sim K E M) : (statEval mc mk dt s).2.t = s.t := rfl

/-- A step of the solver: from some state `y` (the last one, or the mean of the last two)
it goes along what `MakeStationary` makes of the derivatives there, by `h`. -/
theorem statStep_eq (dt : K) (x : Stat K E M) :
    ∃ (y : E) (s : Sim K E M) (h b : K),
      (y = x.sim.r 0 ∨ (x.err ≠ 0 ∧ y = mix (x.sim.r 0) (x.sim.r 1) (1 / 2 : K))) ∧
      s.r 0 = y ∧ b = (statStep mc mk lims dt x).boost ∧
      (statStep mc mk lims dt x).err = (statEval mc mk dt s).1 ∧
      h = (lims (1 / 2 * dt * (statEval mc mk dt s).1)).foldl min (b * dt) ∧
      (statStep mc mk lims dt x).sim.r 1 = y ∧
      (statStep mc mk lims dt x).sim.r 0 = y + h • (statEval mc mk dt s).2.rd 0 ∧
      (statStep mc mk lims dt x).sim.t = x.sim.t + dt := by
  by_cases h1 : x.err ≠ 0
  · by_cases h2 : x.err ≥ (statEval mc mk dt x.sim).1
    · refine ⟨x.sim.r 0, x.sim, _, _, Or.inl rfl, rfl, rfl, ?_, rfl, ?_, ?_, ?_⟩ <;>
        simp [statStep, h1, h2, setR, addT, upd, fin, Function.update_apply, statEval_r, statEval_t]
    · refine ⟨mix (x.sim.r 0) (x.sim.r 1) (1 / 2 : K),
        setR 0 (mix (x.sim.r 0) (x.sim.r 1) (1 / 2 : K)) (statEval mc mk dt x.sim).2, _, _,
        Or.inr ⟨h1, rfl⟩, ?_, rfl, ?_, rfl, ?_, ?_, ?_⟩ <;>
        simp [statStep, h1, h2, setR, addT, upd, fin, Function.update_apply, statEval_r, statEval_t]
  · push Not at h1
    refine ⟨x.sim.r 0, x.sim, _, _, Or.inl rfl, rfl, rfl, ?_, rfl, ?_, ?_, ?_⟩ <;>
      simp [statStep, h1, setR, addT, upd, fin, Function.update_apply, statEval_r, statEval_t]

end

section
variable {K E M ε : Type} [Field K] [LinearOrder K] [IsStrictOrderedRing K]
  [AddCommGroup E] [Module K E]
variable (mc : Machine K E M) (mk : K → E → K × E) (lims : K → List K)

theorem foldl_min_le (l : List K) (a : K) : l.foldl min a ≤ a ∧ ∀ b ∈ l, l.foldl min a ≤ b := by
  induction l generalizing a with
  | nil => simp
  | cons c t ih =>
    obtain ⟨h1, h2⟩ := ih (min a c)
    refine ⟨h1.trans (min_le_left _ _), ?_⟩
    intro b hb
    rcases List.mem_cons.1 hb with rfl | hb
    · exact h1.trans (min_le_right _ _)
    · exact h2 b hb

theorem clampBoost_le (b : K) : clampBoost b ≤ 50 := by
  unfold clampBoost
  split_ifs with h1 h2
  · exact le_rfl
  · norm_num
  · exact not_lt.1 h1

/-- **C81** (limits): a step goes along the accelerations of some state by no more than
fifty internal steps and than any object allows. -/
theorem C81_increment (dt : K) (hdt : 0 ≤ dt) (x : Stat K E M) :
    ∃ (d : E) (h : K), (statStep mc mk lims dt x).sim.r 0 =
        (statStep mc mk lims dt x).sim.r 1 + h • (mk dt d).2 ∧
      h ≤ 50 * dt ∧ ∀ b ∈ lims (1 / 2 * dt * (mk dt d).1), h ≤ b := by
  obtain ⟨y, s, h, b, hy, hs, hb, he, hh, h1, h0, ht⟩ := statStep_eq mc mk lims dt x
  refine ⟨(mc.eval (mc.update s.t (s.tl + 0) (s.r 0) s.m)).1, h, ?_, ?_, ?_⟩
  · rw [h0, h1, statEval_rd]
  · rw [hh]
    refine (foldl_min_le _ _).1.trans (mul_le_mul_of_nonneg_right ?_ hdt)
    rw [hb]
    exact clampBoost_le _
  · intro c hc
    rw [hh]
    refine (foldl_min_le _ _).2 c ?_
    rw [statEval_err]
    exact hc

/-- **C81** (residual): when the derivatives are a function of the state, the error of a step
is that of the state before its last move, kept in the second place. -/
theorem C81_residual (f : E → E) (hf : ∀ t tl e m, (mc.eval (mc.update t tl e m)).1 = f e)
    (dt : K) (x : Stat K E M) :
    (statStep mc mk lims dt x).err = (mk dt (f ((statStep mc mk lims dt x).sim.r 1))).1 := by
  obtain ⟨y, s, h, b, hy, hs, hb, he, hh, h1, h0, ht⟩ := statStep_eq mc mk lims dt x
  rw [he, statEval_err, hf, hs, h1]

/-! ## Velocities -/

/-- Velocities of a state after one step. -/
theorem statStep_vel {F : Type} [AddCommGroup F] [Module K F] (vel : E →ₗ[K] F)
    (hmk : ∀ dt d, vel (mk dt d).2 = 0) (v : F) (dt : K) (x : Stat K E M)
    (h0 : vel (x.sim.r 0) = v) (h1 : x.err ≠ 0 → vel (x.sim.r 1) = v) :
    vel ((statStep mc mk lims dt x).sim.r 0) = v ∧ vel ((statStep mc mk lims dt x).sim.r 1) = v := by
  obtain ⟨y, s, h, b, hy, hs, hb, he, hh, hr1, hr0, ht⟩ := statStep_eq mc mk lims dt x
  have hyv : vel y = v := by
    rcases hy with rfl | ⟨hne, rfl⟩
    · exact h0
    · simp only [mix, map_add, map_smul, h0, h1 hne]
      rw [← add_smul]
      norm_num
  refine ⟨?_, by rw [hr1, hyv]⟩
  rw [hr0, map_add, map_smul, statEval_rd, hmk, hyv, smul_zero, add_zero]

theorem inner_vel {F : Type} [AddCommGroup F] [Module K F] (vel : E →ₗ[K] F)
    (hmk : ∀ dt d, vel (mk dt d).2 = 0) (v : F) (fails : K → Stat K E M → Option ε) (o : Opts K) :
    ∀ (fuel : ℕ) (target : K) (u u' : Run K E M),
      vel (u.x.sim.r 0) = v → (u.x.err ≠ 0 → vel (u.x.sim.r 1) = v) →
      inner (statStepE mc mk lims fails) o fuel target u = some (.ok u') →
      vel (u'.x.sim.r 0) = v ∧ (u'.x.err ≠ 0 → vel (u'.x.sim.r 1) = v) := by
  intro fuel
  induction fuel with
  | zero =>
    intro target u u' h0 h1 h
    unfold inner at h
    by_cases ht : target > 0
    · rw [if_pos ht] at h; exact absurd h (by simp)
    · rw [if_neg ht] at h
      simp only [Option.some.injEq, Except.ok.injEq] at h
      subst h; exact ⟨h0, h1⟩
  | succ f ih =>
    intro target u u' h0 h1 h
    unfold inner at h
    by_cases ht : target > 0
    · rw [if_pos ht] at h
      dsimp only at h
      generalize hd : (if o.dtM < target then o.dtM else target) = dt at h
      cases hf : fails dt u.x with
      | some e => simp only [statStepE, hf] at h; exact absurd h (by simp)
      | none =>
        simp only [statStepE, hf] at h
        have hv := statStep_vel mc mk lims vel hmk v dt u.x h0 h1
        exact ih _ _ _ (by exact hv.1) (fun _ => hv.2) h
    · rw [if_neg ht] at h
      simp only [Option.some.injEq, Except.ok.injEq] at h
      subst h; exact ⟨h0, h1⟩

theorem outer_vel {F : Type} [AddCommGroup F] [Module K F] (vel : E →ₗ[K] F)
    (hmk : ∀ dt d, vel (mk dt d).2 = 0) (v : F) (fails : K → Stat K E M → Option ε) (o : Opts K)
    (fi : ℕ) :
    ∀ (fuel : ℕ) (u u' : Run K E M),
      vel (u.x.sim.r 0) = v → (u.x.err ≠ 0 → vel (u.x.sim.r 1) = v) →
      outer mc (statStepE mc mk lims fails) o fi fuel u = some (.ok u') →
      vel (u'.x.sim.r 0) = v := by
  intro fuel
  induction fuel with
  | zero =>
    intro u u' h0 h1 h
    unfold outer at h
    by_cases ht : o.tmax - u.t > o.tiny
    · rw [if_pos ht] at h; exact absurd h (by simp)
    · rw [if_neg ht] at h
      simp only [Option.some.injEq, Except.ok.injEq] at h
      subst h; exact h0
  | succ f ih =>
    intro u u' h0 h1 h
    unfold outer at h
    by_cases ht : o.tmax - u.t > o.tiny
    · rw [if_pos ht] at h
      dsimp only at h
      cases hi : inner (statStepE mc mk lims fails) o fi o.dtIC { u with x := statNext mc u.x } with
      | none => rw [hi] at h; exact absurd h (by simp)
      | some r =>
        rw [hi] at h
        cases r with
        | error e => exact absurd h (by simp)
        | ok w =>
          dsimp only at h
          have hw := inner_vel mc mk lims vel hmk v fails o fi o.dtIC _ w
            (by exact h0) (by exact h1) hi
          by_cases hc : converged o w = true
          · rw [if_pos hc] at h
            simp only [Option.some.injEq, Except.ok.injEq] at h
            subst h; exact hw.1
          · rw [if_neg hc] at h
            exact ih _ _ (by exact hw.1) (by exact hw.2) h
    · rw [if_neg ht] at h
      simp only [Option.some.injEq, Except.ok.injEq] at h
      subst h; exact h0

/-- **C81** (at rest): with any forces, the solver leaves all velocities (of nodes, points,
rods and bodies) as they were: objects at rest are at rest in the initial condition. -/
theorem C81_velocities {V P Q W : Type} [AddCommGroup V] [Module K V] [AddCommGroup P] [Module K P]
    [AddCommGroup Q] [Module K Q] [AddCommGroup W] [Module K W]
    (N : V → K) (N' : P → K) (conv : W → Q)
    (mc : Machine K ((V × V) × ((P × Q) × (P × W))) M)
    (fails : K → Stat K ((V × V) × ((P × Q) × (P × W))) M → Option ε) (lims : K → List K)
    (o : Opts K) (fi fuel : ℕ) (s : Sim K ((V × V) × ((P × Q) × (P × W))) M)
    (u : Run K ((V × V) × ((P × Q) × (P × W))) M)
    (h : icStationary mc (statStepE mc (mkAll (mkPL N) (mkRB N' conv)) lims fails) o fi fuel s =
      some (.ok u)) :
    (u.x.sim.r 0).1.2 = (s.r 0).1.2 ∧ (u.x.sim.r 0).2.2 = (s.r 0).2.2 := by
  let vel : ((V × V) × ((P × Q) × (P × W))) →ₗ[K] V × (P × W) :=
    { toFun := fun e => (e.1.2, e.2.2)
      map_add' := fun a b => rfl
      map_smul' := fun a b => rfl }
  have := outer_vel (ε := ε) mc (mkAll (mkPL N) (mkRB N' conv)) lims vel (fun dt d => rfl)
    (vel (s.r 0)) fails o fi fuel _ u (by rfl) (fun h => absurd rfl h) h
  exact ⟨congrArg (fun z : V × (P × W) => z.1) this, congrArg (fun z : V × (P × W) => z.2) this⟩

/-! ## Termination -/

theorem inner_ends [Archimedean K] (fails : K → Stat K E M → Option ε) (o : Opts K)
    (hM : 0 < o.dtM) :
    ∀ (fuel : ℕ) (target : K) (u : Run K E M), target ≤ fuel * o.dtM → u.t = u.x.sim.t →
      ∃ r, inner (statStepE mc mk lims fails) o fuel target u = some r ∧
        ∀ u', r = .ok u' → u'.t = u'.x.sim.t ∧ u'.t = u.t + max target 0 ∧ u'.prev = u.prev := by
  intro fuel
  induction fuel with
  | zero =>
    intro target u ht hu
    have ht' : ¬ target > 0 := by push Not; simpa using ht
    refine ⟨.ok u, by unfold inner; rw [if_neg ht'], ?_⟩
    intro u' h
    simp only [Except.ok.injEq] at h
    subst h
    exact ⟨hu, by rw [max_eq_right (not_lt.1 ht')]; simp, rfl⟩
  | succ f ih =>
    intro target u ht hu
    by_cases ht' : target > 0
    · unfold inner
      rw [if_pos ht']
      dsimp only
      generalize hd : (if o.dtM < target then o.dtM else target) = dt
      cases hf : fails dt u.x with
      | some e =>
        refine ⟨.error e, by simp only [statStepE, hf], by intro u' h; exact absurd h (by simp)⟩
      | none =>
        simp only [statStepE, hf]
        have htt := (statStep_eq mc mk lims dt u.x)
        obtain ⟨_, _, _, _, _, _, _, _, _, _, _, htt⟩ := htt
        have hrest : target - dt ≤ f * o.dtM ∧ 0 ≤ target - dt := by
          push_cast at ht
          by_cases hlt : o.dtM < target
          · rw [if_pos hlt] at hd; subst hd
            constructor <;> linarith
          · rw [if_neg hlt] at hd; subst hd
            have : (0 : K) ≤ f * o.dtM := mul_nonneg (Nat.cast_nonneg _) hM.le
            constructor <;> linarith
        obtain ⟨r, hr, hr'⟩ := ih (target - dt)
          { u with x := statStep mc mk lims dt u.x, err := (statStep mc mk lims dt u.x).err,
                   err0 := if u.t = 0 then (statStep mc mk lims dt u.x).err else u.err0,
                   t := (statStep mc mk lims dt u.x).sim.t } hrest.1 rfl
        refine ⟨r, hr, fun u' h => ?_⟩
        obtain ⟨a, b, c⟩ := hr' u' h
        refine ⟨a, ?_, c⟩
        dsimp only at b
        rw [b, htt, ← hu, max_eq_left hrest.2, max_eq_left ht'.le]
        ring
    · refine ⟨.ok u, by unfold inner; rw [if_neg ht'], ?_⟩
      intro u' h
      simp only [Except.ok.injEq] at h
      subst h
      exact ⟨hu, by rw [max_eq_right (not_lt.1 ht')]; simp, rfl⟩

/-- **C81** (end): with positive time steps the solver ends, with an error of the objects or
with a result; it ends at the maximum time or when one of the tests is met. -/
theorem C81_ends [Archimedean K] (fails : K → Stat K E M → Option ε) (o : Opts K)
    (hM : 0 < o.dtM) (hI : 0 < o.dtIC) (s : Sim K E M) :
    ∃ fi n : ℕ, ∀ fuel ≥ n, ∃ r,
      icStationary mc (statStepE mc mk lims fails) o fi fuel s = some r ∧
      ∀ u, r = .ok u → u.t = u.x.sim.t ∧ u.t ≤ max 0 (o.tmax - o.tiny + o.dtIC) ∧
        (o.tmax - u.t ≤ o.tiny ∨ u.err = 0 ∨ (u.err0 ≠ 0 ∧ u.err / u.err0 < o.thr) ∨
          (u.prev ≠ 0 ∧ |u.prev - u.err| / u.prev < o.thr)) := by
  obtain ⟨fi, hfi⟩ := Archimedean.arch o.dtIC hM
  obtain ⟨n, hn⟩ := Archimedean.arch (o.tmax - o.tiny) hI
  rw [nsmul_eq_mul] at hfi hn
  refine ⟨fi, n, fun fuel hfuel => ?_⟩
  have key : ∀ (fuel : ℕ) (u : Run K E M), u.t = u.x.sim.t →
      o.tmax - u.t - o.tiny ≤ fuel * o.dtIC →
      ∃ r, outer mc (statStepE mc mk lims fails) o fi fuel u = some r ∧
        ∀ u', r = .ok u' → u'.t = u'.x.sim.t ∧ u'.t ≤ max u.t (o.tmax - o.tiny + o.dtIC) ∧
          (o.tmax - u'.t ≤ o.tiny ∨ converged o u' = true) := by
    intro fuel
    induction fuel with
    | zero =>
      intro u hu hle
      have ht : ¬ o.tmax - u.t > o.tiny := by
        push Not; simp only [Nat.cast_zero, zero_mul] at hle; linarith
      refine ⟨.ok u, by unfold outer; rw [if_neg ht], ?_⟩
      intro u' h
      simp only [Except.ok.injEq] at h
      subst h
      exact ⟨hu, le_max_left _ _, Or.inl (not_lt.1 ht)⟩
    | succ f ih =>
      intro u hu hle
      by_cases ht : o.tmax - u.t > o.tiny
      · unfold outer
        rw [if_pos ht]
        dsimp only
        obtain ⟨r, hr, hr'⟩ := inner_ends mc mk lims fails o hM fi o.dtIC
          { u with x := statNext mc u.x } hfi hu
        rw [hr]
        cases r with
        | error e => exact ⟨.error e, rfl, by intro u' h; exact absurd h (by simp)⟩
        | ok w =>
          obtain ⟨h1, h2, h3⟩ := hr' w rfl
          dsimp only at h2 ⊢
          rw [max_eq_left hI.le] at h2
          have h4 : w.t ≤ o.tmax - o.tiny + o.dtIC := by rw [h2]; linarith
          by_cases hc : converged o w = true
          · rw [if_pos hc]
            refine ⟨.ok w, rfl, ?_⟩
            intro u' h
            simp only [Except.ok.injEq] at h
            subst h
            exact ⟨h1, h4.trans (le_max_right _ _), Or.inr hc⟩
          · rw [if_neg hc]
            obtain ⟨r, hr1, hr2⟩ := ih { w with prev := w.err } h1 (by
              push_cast at hle
              dsimp only
              linarith)
            refine ⟨r, hr1, fun u' h => ?_⟩
            obtain ⟨g1, g2, g3⟩ := hr2 u' h
            refine ⟨g1, g2.trans (max_le ?_ (le_max_right _ _)), g3⟩
            exact h4.trans (le_max_right _ _)
      · refine ⟨.ok u, by unfold outer; rw [if_neg ht], ?_⟩
        intro u' h
        simp only [Except.ok.injEq] at h
        subst h
        exact ⟨hu, le_max_left _ _, Or.inl (not_lt.1 ht)⟩
  have h0 : (o.tmax - 0 - o.tiny) ≤ fuel * o.dtIC := ?_
  · obtain ⟨r, hr1, hr2⟩ := key fuel
      { x := ⟨{ s with t := 0 }, 0, 1⟩, t := 0, prev := o.big, err := o.big, err0 := o.big } rfl h0
    refine ⟨r, hr1, fun u h => ?_⟩
    obtain ⟨g1, g2, g3⟩ := hr2 u h
    refine ⟨g1, g2, g3.imp id fun h => ?_⟩
    simpa [converged] using h
  have : (n : K) * o.dtIC ≤ fuel * o.dtIC :=
    mul_le_mul_of_nonneg_right (by exact_mod_cast hfuel) hI.le
  linarith

/-! ## Equilibrium -/

/-- **C10** (stationary solver, points and lines): a system of points and lines without
acceleration stays where it is, for any list of steps. -/
theorem C10_stationary_partial {V : Type} [AddCommGroup V] [Module K V] (N : V → K) (hN : N 0 = 0)
    (mc : Machine K (V × V) M) (p v : V)
    (hx : ∀ t tl m, (mc.eval (mc.update t tl (p, v) m)).1.2 = 0)
    (hs : List K) (x : Stat K (V × V) M) (hr : x.sim.r 0 = (p, v)) (he : x.err = 0) :
    (hs.foldl (fun x h => statStep mc (mkPL N) lims h x) x).sim.r 0 = (p, v) := by
  induction hs generalizing x with
  | nil => exact hr
  | cons a l ih =>
    rw [List.foldl_cons]
    obtain ⟨y, s, h, b, hy, hs, hb, hee, hh, hr1, hr0, ht⟩ := statStep_eq mc (mkPL N) lims a x
    have hyy : y = (p, v) := by
      rcases hy with rfl | ⟨hne, _⟩
      · exact hr
      · exact absurd he hne
    have hz := hx s.t s.tl s.m
    apply ih
    · rw [hr0, statEval_rd, hs, hyy]
      simp [mkPL, hz]
    · rw [hee, statEval_err, hs, hyy]
      simp [mkPL, hz, hN]

/-- **C10** fails for rods and bodies with the stationary solver: without any acceleration
one step leaves the place, and adds a multiple `h` of the identity quaternion to the
orientation (`conv 0`: the quaternion of zero angles). -/
theorem C10_stationary_rigid_false {P Q W : Type} [AddCommGroup P] [Module K P] [AddCommGroup Q]
    [Module K Q] [AddCommGroup W] [Module K W] (N : P → K) (conv : W → Q)
    (mc : Machine K ((P × Q) × (P × W)) M)
    (hx : ∀ t tl e m, (mc.eval (mc.update t tl e m)).1.2 = 0)
    (dt : K) (x : Stat K ((P × Q) × (P × W)) M) (he : x.err = 0) (hb : x.boost = 1) :
    (statStep mc (mkRB N conv) lims dt x).sim.r 0 =
      x.sim.r 0 + ((0, ((lims (1 / 2 * dt * N 0)).foldl min dt) • conv 0), 0) := by
  obtain ⟨y, s, h, b, hy, hs, hbb, hee, hh, hr1, hr0, ht⟩ := statStep_eq mc (mkRB N conv) lims dt x
  have hyy : y = x.sim.r 0 := by
    rcases hy with rfl | ⟨hne, _⟩
    · rfl
    · exact absurd he hne
  have hz := hx s.t s.tl (s.r 0) s.m
  have hb1 : b = 1 := by
    rw [hbb]
    simp only [statStep, he, hb, ne_eq, not_true_eq_false, if_false, clampBoost]
    norm_num
  rw [hr0, hyy, statEval_rd, hh, statEval_err, hb1]
  simp [mkRB, hz]

end

/-! ## Where the solver stops too early -/

/-- A point with a constant acceleration, whose state the objects keep as it is. -/
def falling : Machine ℚ (ℚ × ℚ) (ℚ × ℚ) := ⟨fun _ _ e _ => e, fun m => ((m.2, 1), m), id⟩

/-- The default options with an internal step of half a second. -/
def exOpts : Opts ℚ := ⟨1, 120, 1 / 1000, 1 / 2, 0, 10 ^ 300⟩

/-- **C81** fails when the residual stagnates: a point with a constant acceleration ends the
solver after two intervals of the 120 s allowed, with the residual it began with. -/
theorem C81_stagnation_false : ∃ u,
    icStationary (ε := Empty) falling (statStepE falling (mkPL fun a => |a|) (fun _ => [])
      fun _ _ => none) exOpts 5 200 ⟨0, 0, fun _ => 0, fun _ => 0, 0, (0, 0)⟩ = some (.ok u) ∧
    u.t = 2 ∧ u.err = 1 ∧ u.err0 = 1 ∧ (falling.eval (falling.update 2 0 (u.x.sim.r 0) (0, 0))).1.2 = 1 := by
  cases h : icStationary (ε := Empty) falling (statStepE falling (mkPL fun a => |a|) (fun _ => [])
      fun _ _ => none) exOpts 5 200 ⟨0, 0, fun _ => 0, fun _ => 0, 0, (0, 0)⟩ with
  | none =>
    have : (icStationary (ε := Empty) falling (statStepE falling (mkPL fun a => |a|) (fun _ => [])
      fun _ _ => none) exOpts 5 200 ⟨0, 0, fun _ => 0, fun _ => 0, 0, (0, 0)⟩).isSome = true := by
      decide +kernel
    rw [h] at this; exact absurd this (by simp)
  | some r =>
    cases r with
    | error e => exact e.elim
    | ok u =>
      have h1 : (icStationary (ε := Empty) falling (statStepE falling (mkPL fun a => |a|)
        (fun _ => []) fun _ _ => none) exOpts 5 200
        ⟨0, 0, fun _ => 0, fun _ => 0, 0, (0, 0)⟩).map
          (fun r => match r with | .ok u => (u.t, u.err, u.err0) | .error _ => (0, 0, 0)) =
          some (2, 1, 1) := by decide +kernel
      rw [h] at h1
      simp only [Option.map_some, Option.some.injEq, Prod.mk.injEq] at h1
      exact ⟨u, rfl, h1.1, h1.2.1, h1.2.2, rfl⟩

/-- A body with an angular acceleration and no linear one. -/
def twisted : Machine ℚ ((ℚ × ℚ) × (ℚ × ℚ)) ((ℚ × ℚ) × (ℚ × ℚ)) :=
  ⟨fun _ _ e _ => e, fun m => (((m.2.1, 0), (0, 1)), m), id⟩

/-- **C81** fails for moments: a body with an angular acceleration but no linear one counts
as converged, after the first interval, whatever the angular acceleration. -/
theorem C81_rotation_false : ∃ u,
    icStationary (ε := Empty) twisted (statStepE twisted (mkRB (fun a => |a|) id) (fun _ => [])
      fun _ _ => none) exOpts 5 200 ⟨0, 0, fun _ => 0, fun _ => 0, 0, 0⟩ = some (.ok u) ∧
    u.t = 1 ∧ u.err = 0 ∧
    (twisted.eval (twisted.update 1 0 (u.x.sim.r 0) 0)).1.2.2 = 1 := by
  cases h : icStationary (ε := Empty) twisted (statStepE twisted (mkRB (fun a => |a|) id)
      (fun _ => []) fun _ _ => none) exOpts 5 200 ⟨0, 0, fun _ => 0, fun _ => 0, 0, 0⟩ with
  | none =>
    have : (icStationary (ε := Empty) twisted (statStepE twisted (mkRB (fun a => |a|) id)
      (fun _ => []) fun _ _ => none) exOpts 5 200
      ⟨0, 0, fun _ => 0, fun _ => 0, 0, 0⟩).isSome = true := by
      decide +kernel
    rw [h] at this; exact absurd this (by simp)
  | some r =>
    cases r with
    | error e => exact e.elim
    | ok u =>
      have h1 : (icStationary (ε := Empty) twisted (statStepE twisted (mkRB (fun a => |a|) id)
        (fun _ => []) fun _ _ => none) exOpts 5 200
        ⟨0, 0, fun _ => 0, fun _ => 0, 0, 0⟩).map
          (fun r => match r with | .ok u => (u.t, u.err) | .error _ => (0, 0)) =
          some (1, 0) := by decide +kernel
      rw [h] at h1
      simp only [Option.map_some, Option.some.injEq, Prod.mk.injEq] at h1
      exact ⟨u, rfl, h1.1, h1.2, rfl⟩

/-- A spring: the solver brings it nearer to the equilibrium and leaves the velocity. -/
def spring : Machine ℚ (ℚ × ℚ) (ℚ × ℚ) := ⟨fun _ _ e _ => e, fun m => ((m.2, -m.1), m), id⟩

/-- Non-vacuity of C81: one step of a spring. -/
example : (statStep spring (mkPL fun a => |a|) (fun _ => []) 1
    ⟨⟨0, 0, fun _ => (1, 0), fun _ => 0, 0, (1, 0)⟩, 0, 1⟩).sim.r 0 = (1 / 2, 0) := by
  decide +kernel

/-- Non-vacuity of `C81_velocities`, `C81_ends`: the options are positive. -/
example : 0 < exOpts.dtM ∧ 0 < exOpts.dtIC := by decide +kernel

/-- Non-vacuity of `C10_stationary_partial`: the spring in its place. -/
example (hs : List ℚ) : (hs.foldl (fun x h => statStep spring (mkPL fun a => |a|) (fun _ => []) h x)
    ⟨⟨0, 0, fun _ => (0, 0), fun _ => 0, 0, (0, 0)⟩, 0, 1⟩).sim.r 0 = (0, 0) :=
  C10_stationary_partial (fun _ => []) (fun a : ℚ => |a|) (by simp) spring 0 0
    (fun _ _ _ => by simp [spring]) hs _ rfl rfl

end MD.Time

namespace MD.Rot

theorem euler2Quat_zero : euler2Quat 0 = Quat.one := by
  simp [euler2Quat, angleAxis, Quat.mul, Quat.one]

/-- **C10**: adding a positive multiple of the identity quaternion (which is what the
stationary solver does at every step to rods and bodies without acceleration, see
`C10_stationary_rigid_false`) turns every body that is not aligned with the axes. -/
theorem C10_stationary_turns_false (q : Quat ℝ) (hq : q.normSq = 1)
    (hv : q.x ≠ 0 ∨ q.y ≠ 0 ∨ q.z ≠ 0) (c : ℝ) (hc : 0 < c) :
    orMat (q.add ((euler2Quat 0).smul c)) ≠ orMat q := by
  rw [euler2Quat_zero]
  obtain ⟨w, x, y, z⟩ := q
  simp only [Quat.normSq] at hq
  simp only at hv
  have hs : 0 < x * x + y * y + z * z := by
    rcases hv with h | h | h
    · have := mul_self_pos.2 h; nlinarith [mul_self_nonneg y, mul_self_nonneg z]
    · have := mul_self_pos.2 h; nlinarith [mul_self_nonneg x, mul_self_nonneg z]
    · have := mul_self_pos.2 h; nlinarith [mul_self_nonneg y, mul_self_nonneg x]
  have hn1 : Quat.normalized (⟨w, x, y, z⟩ : Quat ℝ) = ⟨w, x, y, z⟩ := by
    simp [Quat.normalized, Quat.normSq, hq, Quat.smul]
  have hadd : Quat.add (⟨w, x, y, z⟩ : Quat ℝ) (Quat.one.smul c) = ⟨w + c, x, y, z⟩ := by
    simp [Quat.add, Quat.one, Quat.smul]
  rw [hadd]
  unfold orMat
  rw [hn1]
  set S : ℝ := (w + c) * (w + c) + x * x + y * y + z * z with hS
  have hSpos : 0 < S := by nlinarith [mul_self_nonneg (w + c)]
  have hn2 : Quat.normalized (⟨w + c, x, y, z⟩ : Quat ℝ) =
      Quat.smul (1 / Real.sqrt S) ⟨w + c, x, y, z⟩ := by
    have : (⟨w + c, x, y, z⟩ : Quat ℝ).normSq = S := rfl
    simp only [Quat.normalized, this, if_pos hSpos]
  rw [hn2]
  intro h
  set k : ℝ := 1 / Real.sqrt S with hk
  have hkS : k * k * S = 1 := by
    have h1 : Real.sqrt S * Real.sqrt S = S := Real.mul_self_sqrt hSpos.le
    have h2 : Real.sqrt S ≠ 0 := (Real.sqrt_pos.2 hSpos).ne'
    rw [hk]
    field_simp
    nlinarith
  have e (i j : Fin 3) := congrFun (congrFun h i) j
  have e00 := e 0 0; have e11 := e 1 1; have e22 := e 2 2
  have e01 := e 0 1; have e10 := e 1 0; have e02 := e 0 2; have e20 := e 2 0
  have e12 := e 1 2; have e21 := e 2 1
  simp [Quat.toMat, Quat.smul] at e00 e11 e22 e01 e10 e02 e20 e12 e21
  -- the vector part is scaled: k² = 1
  have hk1 : k * k = 1 := by
    have : k * k * (x * x + y * y + z * z) = x * x + y * y + z * z := by linarith
    have := mul_right_cancel₀ hs.ne' (this.trans (one_mul _).symm)
    exact this
  have hS1 : S = 1 := by rw [hk1, one_mul] at hkS; exact hkS
  have hcw : c + 2 * w = 0 := by
    have h1 : c * (c + 2 * w) = 0 := by
      have : (w + c) * (w + c) + x * x + y * y + z * z = 1 := hS1
      nlinarith
    rcases mul_eq_zero.1 h1 with h1 | h1
    · exact absurd h1 hc.ne'
    · exact h1
  -- the antisymmetric part changes its sign
  have hw : w ≠ 0 := by intro h0; rw [h0] at hcw; linarith
  have key : ∀ a : ℝ, (k * a) * (k * (w + c)) = a * w → a = 0 := by
    intro a ha
    have h1 : a * (w + c) = a * w := by
      calc a * (w + c) = (k * k) * (a * (w + c)) := by rw [hk1, one_mul]
        _ = (k * a) * (k * (w + c)) := by ring
        _ = a * w := ha
    have h2 : a * c = 0 := by linarith
    rcases mul_eq_zero.1 h2 with h2 | h2
    · exact h2
    · exact absurd h2 hc.ne'
  have hz : z = 0 := key z (by linarith)
  have hy : y = 0 := key y (by linarith)
  have hx : x = 0 := key x (by linarith)
  rw [hx, hy, hz] at hs
  simp at hs

/-- Non-vacuity: a body turned by 90 degrees about the vertical axis. -/
example : orMat (Quat.add ⟨3 / 5, 0, 0, 4 / 5⟩ ((euler2Quat 0).smul (1 / 100))) ≠
    orMat ⟨3 / 5, 0, 0, 4 / 5⟩ :=
  C10_stationary_turns_false _ (by norm_num [Quat.normSq]) (Or.inr (Or.inr (by norm_num))) _
    (by norm_num)

end MD.Rot
