import Verif.Lemmas.Path
import Mathlib.Algebra.Order.Field.Rat
import Mathlib.Data.Rat.Defs

/-!
# C90: which instant the positions and the forces asked after a step belong to

Positions and velocities are stored in the objects by `Update`; forces, tensions and everything
else computed by the right hand sides by `CalcStateDeriv`.
-/

set_option linter.unusedSimpArgs false
set_option linter.unusedSectionVars false
set_option linter.unusedVariables false

namespace MD.Time

/-- What can be asked to the objects: time and state of the positions and velocities they hold, and
time and state for which their forces were computed. -/
structure Seen (K E : Type) where
  posTime : K
  pos : E
  forceTime : K
  force : E

/-- Any objects, with a record of what can be asked to them -/
def watched {K E M : Type} (mc : Machine K E M) : Machine K E (M × Seen K E) where
  update := fun t tl e m => (mc.update t tl e m.1, { m.2 with posTime := t, pos := e })
  eval := fun m => ((mc.eval m.1).1, ((mc.eval m.1).2,
    { m.2 with forceTime := m.2.posTime, force := m.2.pos }))
  next := fun m => (mc.next m.1, m.2)

section
variable {F E M : Type} [Field F] [LinearOrder F] [IsStrictOrderedRing F] [AddCommGroup E]
  [Module F E]
variable (mc : Machine F E M) (ax : Aux F E)

/-- Fraction of the internal step at which each scheme computes its last forces -/
def lastForce : Scheme F → F
  | .rk2 => 1 / 2
  | .rk4 => 1
  | .impEuler _ fac => fac
  | .anderson _ fac => fac
  | .newmark _ _ _ => 1
  | .wilson _ theta => theta
  | _ => 0

/-- The schemes that compute the forces at least once in each step: all, but the implicit ones
without iterations -/
def Computes : Scheme F → Prop
  | .impEuler n _ => 1 ≤ n
  | .anderson n _ => 1 ≤ n
  | .newmark n _ _ => 1 ≤ n
  | .wilson n _ => 1 ≤ n
  | _ => True

/-- The simulation without the record -/
def forget (s : Sim F E (M × Seen F E)) : Sim F E M := ⟨s.t, s.tl, s.r, s.rd, s.n, s.m.1⟩

theorem forget_foldl (f : ℕ → Sim F E (M × Seen F E) → Sim F E (M × Seen F E))
    (g : ℕ → Sim F E M → Sim F E M) (h : ∀ i s, forget (f i s) = g i (forget s)) (l : List ℕ)
    (s : Sim F E (M × Seen F E)) :
    forget (l.foldl (fun s i => f i s) s) = l.foldl (fun s i => g i s) (forget s) := by
  induction l generalizing s with
  | nil => rfl
  | cons i l ih => simp only [List.foldl_cons]; rw [ih, h]

theorem forget_andLoop (iters : ℕ) (fac dt : F) (k : ℕ) (g0 : E × E) (s : Sim F E (M × Seen F E)) :
    forget (andLoop (watched mc) ax iters fac dt k g0 s) =
      andLoop mc ax iters fac dt k g0 (forget s) := by
  induction k generalizing s g0 with
  | zero => rfl
  | succ k ih =>
    simp only [andLoop]
    by_cases h1 : iters - (k + 1) < iters - 1
    · rw [if_pos h1, if_pos h1]
      by_cases h2 : ax.conv (firstRes (iters - (k + 1)) ((clc (watched mc) 0 (upd (watched mc) (fac * dt) 1
          (setR 1 (s.r 0 + (fac * dt) • s.rd 0) s))).rd 1, (clc (watched mc) 0
          (upd (watched mc) (fac * dt) 1 (setR 1 (s.r 0 + (fac * dt) • s.rd 0) s))).rd 0) g0)
          ((clc (watched mc) 0 (upd (watched mc) (fac * dt) 1
          (setR 1 (s.r 0 + (fac * dt) • s.rd 0) s))).rd 1, (clc (watched mc) 0
          (upd (watched mc) (fac * dt) 1 (setR 1 (s.r 0 + (fac * dt) • s.rd 0) s))).rd 0) = true
      · rw [if_pos h2, if_pos (by exact h2)]
        rfl
      · rw [if_neg h2, if_neg (by exact h2), ih]
        rfl
    · rw [if_neg h1, if_neg h1]
      rfl

/-- Watching the objects does not change what they do. -/
theorem watched_step (sc : Scheme F) (dt : F) (s : Sim F E (M × Seen F E)) :
    forget (stepOf (watched mc) ax sc dt s) = stepOf mc ax sc dt (forget s) := by
  cases sc with
  | impEuler iters fac =>
    have h := forget_foldl (fun i s => impBody (watched mc) ax iters fac dt i s)
      (fun i s => impBody mc ax iters fac dt i s) (by
        intro i s
        unfold impBody
        by_cases h : i < iters - 1
        · simp only [if_pos h]; rfl
        · simp only [if_neg h]; rfl) (List.range iters)
      (setRd 1 ((addT (fac * dt) s).rd 0) (addT (fac * dt) s))
    simp only [stepOf, impEuler]
    exact congrArg (fun u : Sim F E M => fin dt (upd mc dt 0 (addT ((1 - fac) * dt)
      (setR 0 (u.r 0 + dt • u.rd 0) u)))) h
  | anderson iters fac =>
    have h := forget_andLoop mc ax iters fac dt iters (0, 0) (addT (fac * dt) s)
    exact congrArg (fun u : Sim F E M => fin dt (upd mc dt 0 (addT ((1 - fac) * dt)
      (setR 0 (u.r 0 + dt • u.rd 0) u)))) h
  | newmark iters g b =>
    have h := forget_foldl (fun i s => newmarkBody (watched mc) ax iters g b dt i s)
      (fun i s => newmarkBody mc ax iters g b dt i s) (by
        intro i s
        unfold newmarkBody
        by_cases h : i < iters - 1
        · simp only [if_pos h]; rfl
        · simp only [if_neg h]; rfl) (List.range iters)
      (setRd 2 (s.rd 0) (addT dt (setRd 1 (s.rd 0) s)))
    exact congrArg (fun u : Sim F E M =>
      let s := setR 1 (u.r 0 + dt • ax.newmark g b (u.rd 0) (u.rd 1) dt) u
      let s := setR 0 (s.r 1) s
      let s := setRd 0 (s.rd 1) s
      fin dt (upd mc dt 0 s)) h
  | wilson iters th =>
    have h := forget_foldl (fun i s => wilsonBody (watched mc) ax iters (th * dt) i s)
      (fun i s => wilsonBody mc ax iters (th * dt) i s) (by
        intro i s
        unfold wilsonBody
        by_cases h : i < iters - 1
        · simp only [if_pos h]; rfl
        · simp only [if_neg h]; rfl) (List.range iters)
      (setRd 1 (s.rd 0) (addT (th * dt) s))
    exact congrArg (fun u : Sim F E M =>
      let s := addT (-((1 - th) * dt)) u
      let s := setR 1 (s.r 0 + dt • ax.wilson (s.rd 0) (s.rd 1) dt (th * dt)) s
      let s := setR 0 (s.r 1) s
      let s := setRd 0 (s.rd 1) s
      fin dt (upd mc dt 0 s)) h
  | rk4 => simp [stepOf, rk4, upd, clc, setR, addT, fin, forget, watched, Function.update_apply]
  | _ => rfl

/-- **C90** (positions): after any internal step of any scheme the objects show the state and the
time of the integrator. -/
theorem C90_positions (sc : Scheme F) (dt : F) (s : Sim F E (M × Seen F E)) :
    let s' := stepOf (watched mc) ax sc dt s
    s'.m.2.pos = s'.r 0 ∧ s'.m.2.posTime = s'.t := by
  cases sc <;> exact ⟨rfl, rfl⟩

/-- a body of a loop that ends with an evaluation at the time of the integrator leaves that as the
time of the forces -/
theorem loop_force (body : ℕ → Sim F E (M × Seen F E) → Sim F E (M × Seen F E))
    (hb : ∀ i s, (body i s).t = s.t ∧ (body i s).m.2.forceTime = s.t) (n : ℕ) (hn : 1 ≤ n)
    (s : Sim F E (M × Seen F E)) :
    let s' := (List.range n).foldl (fun s i => body i s) s
    s'.t = s.t ∧ s'.m.2.forceTime = s.t := by
  induction n, hn using Nat.le_induction with
  | base => exact hb 0 s
  | succ n hn ih =>
    intro s'
    have e : s' = body n ((List.range n).foldl (fun s i => body i s) s) := by
      change List.foldl _ _ _ = _
      rw [List.range_succ, List.foldl_append]
      rfl
    obtain ⟨h1, h2⟩ := hb n ((List.range n).foldl (fun s i => body i s) s)
    rw [e, h1, h2]
    exact ⟨ih.1, ih.1⟩

theorem andLoop_force (iters : ℕ) (fac dt : F) (k : ℕ) (hk : 1 ≤ k)
    (g0 : E × E) (s : Sim F E (M × Seen F E)) :
    (andLoop (watched mc) ax iters fac dt k g0 s).m.2.forceTime = s.t := by
  induction k, hk using Nat.le_induction generalizing s g0 with
  | base =>
    simp only [andLoop]
    split_ifs <;> rfl
  | succ k hk ih =>
    rw [andLoop]
    simp only
    split_ifs with h1 h2
    · rfl
    · rw [ih]; rfl
    · rfl

/-- **C90** (forces, exact): the forces held by the objects after an internal step were computed at
the fraction `lastForce` of it. -/
theorem C90_force_time (sc : Scheme F) (hc : Computes sc) (dt : F)
    (s : Sim F E (M × Seen F E)) :
    (stepOf (watched mc) ax sc dt s).m.2.forceTime = s.t + lastForce sc * dt := by
  have h2 : (2 : F) ≠ 0 := two_ne_zero
  cases sc with
  | euler => simp [lastForce, stepOf, euler, upd, clc, setR, addT, fin, watched]
  | leuler => simp [lastForce, stepOf, leuler, upd, clcSel, setR, addT, fin, watched]
  | heun => simp [lastForce, stepOf, heun, upd, clc, setR, setRd, addT, fin, watched]
  | rk2 => rfl
  | rk4 =>
    change s.t + 1 / 2 * dt + 1 / 2 * dt = s.t + 1 * dt
    ring
  | ab order => simp [lastForce, stepOf, ab, shift, upd, clc, setR, setRd, addT, fin, watched]
  | impEuler iters fac =>
    exact (loop_force (fun i s => impBody (watched mc) ax iters fac dt i s) (by
      intro i s
      unfold impBody
      simp only
      split_ifs <;> exact ⟨rfl, rfl⟩) iters hc _).2
  | anderson iters fac => exact andLoop_force mc ax iters fac dt iters hc _ _
  | newmark iters g b =>
    rw [lastForce, one_mul]
    exact (loop_force (fun i s => newmarkBody (watched mc) ax iters g b dt i s) (by
      intro i s
      unfold newmarkBody
      simp only
      split_ifs <;> exact ⟨rfl, rfl⟩) iters hc _).2
  | wilson iters th =>
    exact (loop_force (fun i s => wilsonBody (watched mc) ax iters (th * dt) i s) (by
      intro i s
      unfold wilsonBody
      simp only
      split_ifs <;> exact ⟨rfl, rfl⟩) iters hc _).2

/-- a property that every internal step establishes holds after `MoorDyn_Step` -/
theorem subLoop_last {σ ε : Type} (dtM0 : F) (h0 : 0 < dtM0) (step : F → σ → Except ε σ)
    (P : σ → Prop) (hP : ∀ h s s', 0 < h → h ≤ dtM0 → step h s = .ok s' → P s') (fuel : ℕ)
    (target : F) (s s' : σ) (hs hs' : List F) (ht : 0 < target ∨ P s)
    (h : subLoop dtM0 step fuel target s hs = some (.ok s', hs')) : P s' := by
  induction fuel generalizing target s hs with
  | zero =>
    unfold subLoop at h
    by_cases hpos : target > 0
    · simp [hpos] at h
    · rw [if_neg hpos] at h
      simp only [Option.some.injEq, Prod.mk.injEq, Except.ok.injEq] at h
      rw [← h.1]
      exact ht.resolve_left hpos
  | succ f ih =>
    unfold subLoop at h
    by_cases hpos : target > 0
    · rw [if_pos hpos] at h
      simp only at h
      generalize hh : (if dtM0 < target then dtM0 else target) = d at h
      have hd : 0 < d ∧ d ≤ dtM0 := by
        by_cases hlt : dtM0 < target
        · rw [if_pos hlt] at hh; rw [← hh]; exact ⟨h0, le_rfl⟩
        · rw [if_neg hlt] at hh; rw [← hh]; exact ⟨hpos, le_of_not_gt hlt⟩
      cases hst : step d s with
      | error e => rw [hst] at h; simp at h
      | ok u =>
        rw [hst] at h
        exact ih (target - d) u (d :: hs) (Or.inr (hP d s u hd.1 hd.2 hst)) h
    · rw [if_neg hpos] at h
      simp only [Option.some.injEq, Prod.mk.injEq, Except.ok.injEq] at h
      rw [← h.1]
      exact ht.resolve_left hpos

/-- **C90** (a call): after `MoorDyn_Step` the positions shown are those of the returned time, and
the forces shown are those of an instant at most one internal step before it. -/
theorem C90_call_partial (sc : Scheme F) (hsc : Inside sc) (hc : Computes sc) (dtM0 : F)
    (h0 : 0 < dtM0) (fuel : ℕ) (dt : F) (hdt : 0 < dt) (s s' : Sim F E (M × Seen F E))
    (hs : List F)
    (h : outerStep (ε := Empty) dtM0 (next (watched mc))
      (fun d s => .ok (stepOf (watched mc) ax sc d s)) fuel dt s = some (.ok s', hs)) :
    s'.m.2.pos = s'.r 0 ∧ s'.m.2.posTime = s'.t ∧
      s'.t - dtM0 ≤ s'.m.2.forceTime ∧ s'.m.2.forceTime ≤ s'.t := by
  unfold outerStep at h
  rw [if_neg (not_le.2 hdt)] at h
  refine subLoop_last dtM0 h0 _ (fun s' => s'.m.2.pos = s'.r 0 ∧ s'.m.2.posTime = s'.t ∧
      s'.t - dtM0 ≤ s'.m.2.forceTime ∧ s'.m.2.forceTime ≤ s'.t) ?_ fuel dt _ s' [] hs
      (Or.inl hdt) h
  intro d u u' hd hd' hu
  have hu' : stepOf (watched mc) ax sc d u = u' := by simpa using hu
  obtain ⟨p1, p2⟩ := C90_positions mc ax sc d u
  have p3 := C90_force_time mc ax sc hc d u
  have p4 := (step_time (watched mc) ax sc d u).1
  rw [hu'] at p1 p2 p3 p4
  have p5 : advance sc d = d := by
    cases sc <;> first | rfl | exact hsc.elim
  have p6 : 0 ≤ lastForce sc ∧ lastForce sc ≤ 1 := by
    cases sc <;> first | exact hsc | exact hsc.elim | (simp [lastForce]; try norm_num)
  rw [p5] at p4
  refine ⟨p1, p2, ?_, ?_⟩
  · rw [p3, p4]; nlinarith [p6.1]
  · rw [p3, p4]; nlinarith [p6.2]

/-- **C90** (forces and positions together): with Euler, local Euler and Adams-Bashforth the forces
are those of the state at the beginning of the last internal step. -/
theorem C90_old_forces (dt : F) (order : ℕ) (s : Sim F E (M × Seen F E)) :
    (stepOf (watched mc) ax .euler dt s).m.2.force = s.r 0 ∧
    (stepOf (watched mc) ax .leuler dt s).m.2.force = s.r 0 ∧
    (stepOf (watched mc) ax (.ab order) dt s).m.2.force = s.r 0 := ⟨rfl, rfl, rfl⟩

/-- **C90**, Heun: the forces are those of the state predicted for the end of the step, in the waves
of its beginning. -/
theorem C90_heun_forces (dt : F) (s : Sim F E (M × Seen F E)) :
    (stepOf (watched mc) ax .heun dt s).m.2.force = s.r 0 + dt • s.rd 0 ∧
    (stepOf (watched mc) ax .heun dt s).m.2.forceTime = s.t := ⟨rfl, rfl⟩

/-- **C90** is false: after a step of the Euler scheme that moves anything, the forces shown do not
belong to the positions shown, nor to their time. -/
theorem C90_consistent_false (dt : F) (hdt : dt ≠ 0) (s : Sim F E (M × Seen F E))
    (hmv : (stepOf (watched mc) ax .euler dt s).rd 0 ≠ 0) :
    let s' := stepOf (watched mc) ax .euler dt s
    s'.m.2.force ≠ s'.m.2.pos ∧ s'.m.2.forceTime ≠ s'.m.2.posTime := by
  intro s'
  have h1 : s'.m.2.pos = s.r 0 + dt • s'.rd 0 := rfl
  have h2 : s'.m.2.force = s.r 0 := rfl
  have h3 : s'.m.2.posTime = s.t + dt := rfl
  have h4 : s'.m.2.forceTime = s.t := rfl
  rw [h1, h2, h3, h4]
  constructor
  · intro h
    rcases smul_eq_zero.1 (left_eq_add.1 h) with h | h
    · exact hdt h
    · exact hmv h
  · intro h
    exact hdt (left_eq_add.1 h)
end

/-- A spring of unit stiffness and mass: the state is its velocity and position -/
def springMachine : Machine ℚ (ℚ × ℚ) (ℚ × ℚ) where
  update := fun _ _ e _ => e
  eval := fun m => ((m.2, -m.1), m)
  next := id

/-- Non-vacuity of `C90_call_partial` and `C90_consistent_false`: one call of 1/2 with internal steps
of 1/5, beginning at position 1: the force shown is 1/10 older than the position. -/
example :
    let ax : Aux ℚ (ℚ × ℚ) := ⟨fun _ _ => 0, fun _ _ => false, fun _ _ a _ _ => a,
      fun a _ _ _ => a, fun a _ => a, (· - ·)⟩
    let s : Sim ℚ (ℚ × ℚ) ((ℚ × ℚ) × Seen ℚ (ℚ × ℚ)) :=
      ⟨0, 0, fun _ => (1, 0), fun _ => 0, 0, ((1, 0), ⟨0, 0, 0, 0⟩)⟩
    ((outerStep (ε := Empty) (1 / 5) (next (watched springMachine))
      (fun d s => .ok (stepOf (watched springMachine) ax .euler d s)) 5 (1 / 2) s).map fun x =>
      match x.1 with
      | .ok s' => (s'.t, s'.m.2.posTime, s'.m.2.forceTime, s'.m.2.pos == s'.m.2.force)
      | .error e => nomatch e) = some (1 / 2, 1 / 2, 2 / 5, false) := by
  decide +kernel

end MD.Time
