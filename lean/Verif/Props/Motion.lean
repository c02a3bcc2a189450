import Verif.Model.Motion
import Verif.Lemmas.Path
import Mathlib.Tactic.Ring
import Mathlib.Tactic.FieldSimp

/-!
# Properties C11, C14 and C15: local time steps, coupled points, paid-out length
-/

set_option linter.unusedSimpArgs false
set_option linter.unusedSectionVars false

namespace MD.Motion

open MD.Time

variable {F E R : Type} [Field F] [LinearOrder F] [IsStrictOrderedRing F] [AddCommGroup E] [Module F E]

/-! ## C14 -/

section
variable {V : Type} [AddCommGroup V] [Module F V] [Archimedean F]

/-- invariant used for C14 -/
def InPlace (x xd : V) (lo hi : F) (τ : F) (q : CPoint V × R) : Prop :=
  (lo ≤ τ ∧ τ ≤ hi) ∧ q.1.rVes = x ∧ q.1.rdVes = xd ∧ q.1.r = x + τ • xd ∧ q.1.rd = xd ∧
    ∀ o ∈ q.1.log, ∃ τ, lo ≤ τ ∧ τ ≤ hi ∧ o = (x + τ • xd, xd)

theorem inPlace_update (update : F → F → E → CPoint V → R → R) (eval : CPoint V → R → E × R)
    (nxt : R → R) (x xd : V) (lo hi τ τ' t : F) (e : E) (q : CPoint V × R) (h1 : lo ≤ τ')
    (h2 : τ' ≤ hi) (h : InPlace x xd lo hi τ q) :
    InPlace x xd lo hi τ' ((pointMachine update eval nxt).update t τ' e q) := by
  obtain ⟨-, h3, h4, h5, h6, h7⟩ := h
  refine ⟨⟨h1, h2⟩, h3, h4, ?_, h4, h7⟩
  simp [pointMachine, CPoint.updateFairlead, h3, h4]

theorem inPlace_update0 (update : F → F → E → CPoint V → R → R) (eval : CPoint V → R → E × R)
    (nxt : R → R) (x xd : V) (lo hi τ' t : F) (e : E) (q : CPoint V × R) (h1 : lo ≤ τ')
    (h2 : τ' ≤ hi) (h : q.1.rVes = x ∧ q.1.rdVes = xd ∧ q.1.log = []) :
    InPlace x xd lo hi τ' ((pointMachine update eval nxt).update t τ' e q) := by
  obtain ⟨h3, h4, h5⟩ := h
  refine ⟨⟨h1, h2⟩, h3, h4, ?_, h4, ?_⟩
  · simp [pointMachine, CPoint.updateFairlead, h3, h4]
  · simp [pointMachine, CPoint.updateFairlead, h5]

theorem inPlace_eval (update : F → F → E → CPoint V → R → R) (eval : CPoint V → R → E × R)
    (nxt : R → R) (x xd : V) (lo hi τ : F) (q : CPoint V × R) (h : InPlace x xd lo hi τ q) :
    InPlace x xd lo hi τ ((pointMachine update eval nxt).eval q).2 := by
  obtain ⟨h1, h3, h4, h5, h6, h7⟩ := h
  refine ⟨h1, h3, h4, h5, h6, ?_⟩
  intro o ho
  simp only [pointMachine, CPoint.observe, List.mem_cons] at ho
  rcases ho with rfl | ho
  · exact ⟨τ, h1.1, h1.2, by rw [h5, h6]⟩
  · exact h7 o ho

/-- C14: during `MoorDyn_Step(x, xd, dt)`, for every scheme but Wilson's, every
internal time step, every behaviour of the rest of the system and every previous
position of the point, each time that the derivatives are evaluated the point is at
`x + τ xd` for some `0 ≤ τ ≤ dt` and moves with velocity `xd`, and when the call
returns it is at `x + dt xd`.  Missing: Wilson's scheme, `C14_wilson_end` and
`C14_wilson_overshoots_false`. -/
theorem C14_coupled_motion_partial (update : F → F → E → CPoint V → R → R)
    (eval : CPoint V → R → E × R)
    (nxt : R → R) (ax : Aux F E) (sc : Scheme F) (hsc : Inside sc) (dtM0 : F) (h0 : 0 < dtM0)
    (dt : F) (hdt : 0 < dt) (x xd : V) (p : CPoint V) (t tl : F) (r rd : ℕ → E) (n : ℕ) (m : R)
    (hlog : p.log = []) :
    ∃ fuel s' hs, outerStep (ε := Empty) dtM0 (next (pointMachine update eval nxt))
        (fun h s => .ok (stepOf (pointMachine update eval nxt) ax sc h s)) fuel dt
        ⟨t, tl, r, rd, n, (p.initiateStep x xd, m)⟩ = some (.ok s', hs) ∧
      (∀ o ∈ s'.m.1.log, ∃ τ, 0 ≤ τ ∧ τ ≤ dt ∧ o = (x + τ • xd, xd)) ∧
      s'.m.1.r = x + dt • xd ∧ s'.m.1.rd = xd := by
  refine Exists.elim (outer_path (pointMachine update eval nxt) ax
    (fun q => q.1.rVes = x ∧ q.1.rdVes = xd ∧ q.1.log = []) (InPlace x xd 0 dt) sc dtM0 h0 dt hdt
    ⟨t, tl, r, rd, n, (p.initiateStep x xd, m)⟩ ?_ ?_ ?_) ?_
  rotate_left 3
  · rintro fuel ⟨s', hs, h1, h2⟩
    exact ⟨fuel, s', hs, h1, h2.2.2.2.2.2, h2.2.2.2.1, h2.2.2.2.2.1⟩
  · intro s h hh hs hhd hq
    have := step_path (pointMachine update eval nxt) ax _ (InPlace x xd 0 dt) sc hsc h hh.le s
      (fun τ τ' t e m h1 h2 h3 hm => inPlace_update update eval nxt x xd 0 dt τ τ' t e m
        (by linarith) (by linarith) hm)
      (fun τ' t e m h1 h2 hm => inPlace_update0 update eval nxt x xd 0 dt τ' t e m
        (by linarith) (by linarith) hm)
      (fun τ m hm => inPlace_eval update eval nxt x xd 0 dt τ m hm) hq
    rwa [hs, zero_add] at this
  · intro s h hh hs hhd hq
    exact step_path (pointMachine update eval nxt) ax (InPlace x xd 0 dt s.tl) (InPlace x xd 0 dt)
      sc hsc h hh.le s
      (fun τ τ' t e m h1 h2 h3 hm => inPlace_update update eval nxt x xd 0 dt τ τ' t e m
        (by linarith) (by linarith) hm)
      (fun τ' t e m h1 h2 hm => inPlace_update update eval nxt x xd 0 dt _ τ' t e m
        (by linarith) (by linarith) hm)
      (fun τ m hm => inPlace_eval update eval nxt x xd 0 dt τ m hm) hq
  · exact ⟨rfl, rfl, hlog⟩

/-- With Wilson's scheme the observations are only known to be within `max(1,θ) dt`
of the beginning; the final position is right. -/
theorem C14_wilson_end (update : F → F → E → CPoint V → R → R)
    (eval : CPoint V → R → E × R) (nxt : R → R) (ax : Aux F E) (iters : ℕ) (th : F) (hth : 1 ≤ th)
    (dtM0 : F) (h0 : 0 < dtM0)
    (dt : F) (hdt : 0 < dt) (x xd : V) (p : CPoint V) (t tl : F) (r rd : ℕ → E) (n : ℕ) (m : R)
    (hlog : p.log = []) :
    ∃ fuel s' hs, outerStep (ε := Empty) dtM0 (next (pointMachine update eval nxt))
        (fun h s => .ok (stepOf (pointMachine update eval nxt) ax (.wilson iters th) h s)) fuel dt
        ⟨t, tl, r, rd, n, (p.initiateStep x xd, m)⟩ = some (.ok s', hs) ∧
      (∀ o ∈ s'.m.1.log, ∃ τ, 0 ≤ τ ∧ τ ≤ th * dt ∧ o = (x + τ • xd, xd)) ∧
      s'.m.1.r = x + dt • xd ∧ s'.m.1.rd = xd := by
  have aux : ∀ a h : F, 0 ≤ a → 0 < h → a + h ≤ dt →
      0 ≤ a + th * h ∧ a + th * h ≤ th * dt ∧ a + h ≤ th * dt := by
    intro a h ha hh hle
    have h1 : 0 ≤ (th - 1) * a := mul_nonneg (by linarith) ha
    have h2 : 0 ≤ th * (dt - a - h) := mul_nonneg (by linarith) (by linarith)
    have h3 : 0 ≤ th * h := mul_nonneg (by linarith) hh.le
    have h4 : 0 ≤ (th - 1) * h := mul_nonneg (by linarith) hh.le
    refine ⟨by linarith, by nlinarith, by nlinarith⟩
  refine Exists.elim (outer_path (pointMachine update eval nxt) ax
    (fun q => q.1.rVes = x ∧ q.1.rdVes = xd ∧ q.1.log = []) (InPlace x xd 0 (th * dt))
    (.wilson iters th) dtM0 h0 dt hdt
    ⟨t, tl, r, rd, n, (p.initiateStep x xd, m)⟩ ?_ ?_ ?_) ?_
  rotate_left 3
  · rintro fuel ⟨s', hs, h1, h2⟩
    exact ⟨fuel, s', hs, h1, h2.2.2.2.2.2, h2.2.2.2.1, h2.2.2.2.2.1⟩
  · intro s h hh hs hhd hq
    obtain ⟨b1, b2, b3⟩ := aux s.tl h (by rw [hs]) hh (by rw [hs]; linarith)
    have b0 : 0 ≤ s.tl + h := by rw [hs]; linarith
    have := wilson_path (pointMachine update eval nxt) ax _ (InPlace x xd 0 (th * dt)) iters th h s
      (fun τ τ' t e m h1 h2 hm => inPlace_update update eval nxt x xd 0 (th * dt) τ τ' t e m
        (by rcases h2 with rfl | rfl <;> assumption) (by rcases h2 with rfl | rfl <;> assumption) hm)
      (fun τ' t e m h2 hm => inPlace_update0 update eval nxt x xd 0 (th * dt) τ' t e m
        (by rcases h2 with rfl | rfl <;> assumption) (by rcases h2 with rfl | rfl <;> assumption) hm)
      (fun τ m hm => inPlace_eval update eval nxt x xd 0 (th * dt) τ m hm) hq
    rwa [hs, zero_add] at this
  · intro s h hh hs hhd hq
    obtain ⟨b1, b2, b3⟩ := aux s.tl h hs hh hhd
    have b0 : 0 ≤ s.tl + h := by linarith
    exact wilson_path (pointMachine update eval nxt) ax (InPlace x xd 0 (th * dt) s.tl)
      (InPlace x xd 0 (th * dt)) iters th h s
      (fun τ τ' t e m h1 h2 hm => inPlace_update update eval nxt x xd 0 (th * dt) τ τ' t e m
        (by rcases h2 with rfl | rfl <;> assumption) (by rcases h2 with rfl | rfl <;> assumption) hm)
      (fun τ' t e m h2 hm => inPlace_update update eval nxt x xd 0 (th * dt) _ τ' t e m
        (by rcases h2 with rfl | rfl <;> assumption) (by rcases h2 with rfl | rfl <;> assumption) hm)
      (fun τ m hm => inPlace_eval update eval nxt x xd 0 (th * dt) τ m hm) hq
  · exact ⟨rfl, rfl, hlog⟩

end

/-- C14 is false for Wilson's scheme: with `wilson1` (`θ = 1.37`), `x = 0`, `xd = 1`
and a step of 1 the point is observed at 1.37, beyond the end of the step. -/
theorem C14_wilson_overshoots_false (ax : Aux ℚ ℚ) :
    (stepOf (pointMachine (V := ℚ) (fun _ _ (_ : ℚ) _ (_ : Unit) => ()) (fun _ _ => (0, ())) id) ax
      (.wilson 1 (137 / 100)) 1 ⟨0, 0, fun _ => 0, fun _ => 0, 0, (⟨0, 1, 0, 0, []⟩, ())⟩).m.1.log
      = [(137 / 100, 1)] := by
  norm_num [stepOf, wilson, wilsonBody, upd, clc, setR, setRd, addT, fin, pointMachine,
    CPoint.updateFairlead, CPoint.observe, Function.update_apply, List.range_succ]

/-- non-vacuity of C14: an RK2 step of 1 with `x = 5`, `xd = 2` observes the point at 5
and 6 and leaves it at 7 -/
example (ax : Aux ℚ ℚ) :
    (stepOf (pointMachine (V := ℚ) (fun _ _ (_ : ℚ) _ (_ : Unit) => ()) (fun _ _ => (0, ())) id) ax
      .rk2 1 ⟨0, 0, fun _ => 0, fun _ => 0, 0, ((⟨0, 0, 0, 0, []⟩ : CPoint ℚ).initiateStep 5 2, ())⟩).m.1
      = ⟨5, 2, 7, 2, [(6, 2), (5, 2)]⟩ := by
  norm_num [stepOf, rk2, upd, clc, setR, setRd, addT, fin, pointMachine,
    CPoint.updateFairlead, CPoint.observe, CPoint.initiateStep, Function.update_apply]

/-! ## C15 -/

section
variable [Archimedean F]

/-- the schemes for which the local times sent to the objects are positive after the
first one (every selectable one) -/
def Forward : Scheme F → Prop
  | .wilson _ th => 0 < th
  | sc => Inside sc

/-- invariant used for C15 -/
def Paid (L u : F) (N : ℕ) (τ : F) (q : LLen F × R) : Prop :=
  0 ≤ τ ∧ q.1.vel = u ∧ q.1.N = N ∧ q.1.len = L + τ * u ∧ (u ≠ 0 → q.1.len0 = L) ∧
    q.1.l = List.replicate N (q.1.len / N)

theorem paid_update (update : F → F → E → LLen F → R → R) (eval : LLen F → R → E × R)
    (nxt : R → R) (L u : F) (N : ℕ) (τ τ' t : F) (e : E) (q : LLen F × R)
    (hττ : (0 ≤ τ' ∧ τ ≤ τ') ∨ 0 < τ') (h : Paid L u N τ q) :
    Paid L u N τ' ((lineMachine update eval nxt).update t τ' e q) := by
  obtain ⟨h0, h1, hN, h2, h3, h4⟩ := h
  simp only [Paid, lineMachine, LLen.update]
  by_cases hu : u = 0
  · rw [if_pos (h1.trans hu)]
    refine ⟨by rcases hττ with h | h <;> linarith, h1, hN, by rw [h2, hu]; simp,
      fun h => absurd hu h, h4⟩
  · have hv : q.1.vel ≠ 0 := by rw [h1]; exact hu
    rw [if_neg hv]
    by_cases ht : τ' = 0
    · rw [if_pos ht]
      have hτ : τ = 0 := by
        rcases hττ with ⟨-, h⟩ | h
        · linarith
        · linarith
      refine ⟨by rw [ht], h1, hN, by simp [h2, ht, hτ], fun _ => by simp [h2, hτ], h4⟩
    · rw [if_neg ht]
      refine ⟨by rcases hττ with h | h <;> linarith, h1, hN, ?_, h3, ?_⟩
      · simp [LLen.setLen, h3 hu, h1]
      · simp [LLen.setLen, hN]

/-- C15, one call of `MoorDyn_Step`: for every scheme, internal time step and
behaviour of the rest of the system the unstretched length grows by `u dt` and each
of the `N` segments has length `len / N`. -/
theorem C15_one_step (update : F → F → E → LLen F → R → R) (eval : LLen F → R → E × R)
    (nxt : R → R) (ax : Aux F E) (sc : Scheme F) (hsc : Forward sc) (dtM0 : F) (h0 : 0 < dtM0)
    (dt : F) (hdt : 0 < dt) (u : F) (p : LLen F) (t tl : F) (r rd : ℕ → E) (n : ℕ) (m : R)
    (hl : p.l = List.replicate p.N (p.len / p.N)) :
    ∃ fuel s' hs, outerStep (ε := Empty) dtM0 (next (lineMachine update eval nxt))
        (fun h s => .ok (stepOf (lineMachine update eval nxt) ax sc h s)) fuel dt
        ⟨t, tl, r, rd, n, (p.setVel u, m)⟩ = some (.ok s', hs) ∧
      s'.m.1.len = p.len + dt * u ∧ s'.m.1.N = p.N ∧ s'.m.1.vel = u ∧
      s'.m.1.l = List.replicate p.N (s'.m.1.len / p.N) := by
  have hev : ∀ τ q, Paid p.len u p.N τ q →
      Paid p.len u p.N τ ((lineMachine update eval nxt).eval q).2 := fun τ q h => h
  have key : ∀ (s : Sim F E (LLen F × R)) (h : F), 0 < h → 0 ≤ s.tl → s.tl + h ≤ dt →
      Paid p.len u p.N s.tl s.m →
      Paid p.len u p.N (s.tl + h) (stepOf (lineMachine update eval nxt) ax sc h s).m := by
    intro s h hh hs hle hq
    by_cases hw : ∃ iters th, sc = .wilson iters th
    · obtain ⟨iters, th, rfl⟩ := hw
      have hth : 0 < th * h := mul_pos hsc hh
      exact wilson_path (lineMachine update eval nxt) ax (Paid p.len u p.N s.tl) (Paid p.len u p.N)
        iters th h s
        (fun τ τ' t e m _ h2 hm => paid_update update eval nxt _ u _ τ τ' t e m
          (Or.inr (by rcases h2 with rfl | rfl <;> linarith)) hm)
        (fun τ' t e m h2 hm => paid_update update eval nxt _ u _ _ τ' t e m
          (Or.inr (by rcases h2 with rfl | rfl <;> linarith)) hm) hev hq
    · have hin : Inside sc := by
        cases sc with
        | wilson it th => exact absurd ⟨it, th, rfl⟩ hw
        | _ => exact hsc
      exact step_path (lineMachine update eval nxt) ax (Paid p.len u p.N s.tl) (Paid p.len u p.N) sc
        hin h hh.le s
        (fun τ τ' t e m h1 h2 h3 hm => paid_update update eval nxt _ u _ τ τ' t e m
          (Or.inl ⟨by linarith, h2⟩) hm)
        (fun τ' t e m h1 h2 hm => paid_update update eval nxt _ u _ _ τ' t e m
          (Or.inl ⟨by linarith, h1⟩) hm) hev hq
  refine Exists.elim (outer_path (lineMachine update eval nxt) ax
    (Paid p.len u p.N 0) (Paid p.len u p.N) sc dtM0 h0 dt hdt
    ⟨t, tl, r, rd, n, (p.setVel u, m)⟩ ?_ key ?_) ?_
  rotate_left 2
  · rintro fuel ⟨s', hs, h1, h2⟩
    obtain ⟨-, a, b, c, -, d⟩ := h2
    exact ⟨fuel, s', hs, h1, c, b, a, d⟩
  · intro s h hh hs hle hq
    have := key s h hh (by rw [hs]) (by rw [hs]; linarith) (by rw [hs]; exact hq)
    rwa [hs, zero_add] at this
  · simp only [Paid, lineMachine, LLen.update, LLen.setVel]
    by_cases hu : u = 0
    · rw [if_pos hu]
      exact ⟨le_rfl, rfl, rfl, by simp, fun h => absurd hu h, hl⟩
    · simp [if_neg hu, hl]

/-- Calls of `MoorDyn_Step`: each item gives the rate set with
`MoorDyn_SetLineUnstretchedLengthVel` before the call, the duration and what is
done to the other parts of the system before the call. -/
inductive Steps (mc : Machine F E (LLen F × R)) (ax : Aux F E) (sc : Scheme F) (dtM0 : F) :
    List (F × F) → Sim F E (LLen F × R) → Sim F E (LLen F × R) → Prop
  | nil (s) : Steps mc ax sc dtM0 [] s s
  | cons (u dt : F) (l) (s s1 s2 : Sim F E (LLen F × R)) (t tl : F) (r rd : ℕ → E) (n : ℕ) (m : R)
      (fuel : ℕ) (hs : List F)
      (h1 : outerStep (ε := Empty) dtM0 (next mc) (fun h s => .ok (stepOf mc ax sc h s)) fuel dt
        ⟨t, tl, r, rd, n, (s.m.1.setVel u, m)⟩ = some (.ok s1, hs))
      (h2 : Steps mc ax sc dtM0 l s1 s2) : Steps mc ax sc dtM0 ((u, dt) :: l) s s2

/-- C15: after any sequence of calls of `MoorDyn_Step` the unstretched length is the
initial one plus the sum of rate times duration (with a constant rate `u`, `u` times
the total duration), and the segment lengths are the total divided by the number of
segments. -/
theorem C15_paid_out_length (update : F → F → E → LLen F → R → R) (eval : LLen F → R → E × R)
    (nxt : R → R) (ax : Aux F E) (sc : Scheme F) (hsc : Forward sc) (dtM0 : F) (h0 : 0 < dtM0)
    (calls : List (F × F)) (hc : ∀ c ∈ calls, 0 < c.2) (s s' : Sim F E (LLen F × R))
    (hl : s.m.1.l = List.replicate s.m.1.N (s.m.1.len / s.m.1.N))
    (hs : Steps (lineMachine update eval nxt) ax sc dtM0 calls s s') :
    s'.m.1.len = s.m.1.len + (calls.map fun c => c.1 * c.2).sum ∧
    s'.m.1.l = List.replicate s.m.1.N (s'.m.1.len / s.m.1.N) := by
  induction hs with
  | nil s => exact ⟨by simp, hl⟩
  | cons u dt l s s1 s2 t tl r rd n m fuel hsl h1 h2 ih =>
    obtain ⟨fuel', s1', hs', k1, k2, k3, k4, k5⟩ := C15_one_step update eval nxt ax sc hsc dtM0 h0 dt
      (hc (u, dt) (by simp)) u s.m.1 t tl r rd n m hl
    have hpos : ¬ dt ≤ 0 := not_le.mpr (hc (u, dt) (by simp))
    have hEq : s1' = s1 := by
      unfold outerStep at h1 k1
      rw [if_neg hpos] at h1 k1
      have := C06_fuel_irrelevant _ _ _ _ _ _ _ _ _ h1 k1
      simp only [Prod.mk.injEq, Except.ok.injEq] at this
      exact this.1.symm
    subst hEq
    have := ih (fun c hc' => hc c (by simp [hc'])) (by rw [k5, k3])
    rw [k3] at this
    refine ⟨?_, this.2⟩
    rw [this.1, k2]
    simp only [List.map_cons, List.sum_cons]
    ring

/-- constant rate: the statement of C15 literally -/
theorem C15_constant_rate (update : F → F → E → LLen F → R → R) (eval : LLen F → R → E × R)
    (nxt : R → R) (ax : Aux F E) (sc : Scheme F) (hsc : Forward sc) (dtM0 : F) (h0 : 0 < dtM0)
    (u : F) (dts : List F) (hc : ∀ d ∈ dts, 0 < d) (s s' : Sim F E (LLen F × R))
    (hl : s.m.1.l = List.replicate s.m.1.N (s.m.1.len / s.m.1.N))
    (hs : Steps (lineMachine update eval nxt) ax sc dtM0 (dts.map fun d => (u, d)) s s') :
    s'.m.1.len = s.m.1.len + u * dts.sum := by
  rw [(C15_paid_out_length update eval nxt ax sc hsc dtM0 h0 _ (by
    intro c hc'
    obtain ⟨d, hd, rfl⟩ := List.mem_map.mp hc'
    exact hc d hd) s s' hl hs).1]
  congr 1
  rw [List.map_map]
  clear hs hc
  induction dts with
  | nil => simp
  | cons d l ih =>
    rw [List.map_cons, List.sum_cons, ih, List.sum_cons, mul_add]
    rfl

end

/-- non-vacuity of C15: a line of length 10 paid out at 3 during two RK4 steps of 1/2 -/
example (ax : Aux ℚ ℚ) :
    let mc := lineMachine (K := ℚ) (fun _ _ (_ : ℚ) _ (_ : Unit) => ()) (fun _ _ => (0, ())) id
    (stepOf mc ax .rk4 (1 / 2) (stepOf mc ax .rk4 (1 / 2) (next mc
      ⟨0, 7, fun _ => 0, fun _ => 0, 0, (⟨2, 10, 0, 3, [5, 5]⟩, ())⟩))).m.1
      = ⟨2, 13, 10, 3, [13 / 2, 13 / 2]⟩ := by
  norm_num [stepOf, rk4, upd, clc, setR, setRd, addT, fin, next, lineMachine,
    LLen.update, LLen.setLen, Function.update_apply, List.replicate]

/-! ## C11 -/

/-- invariant of the clock of a line at time `t` -/
def Clock.Ok (dtLine t : F) (c : Clock F) : Prop :=
  c.dt0 = 999 / 1000 * dtLine ∧ ((c.dt ≥ dtLine) ∨ t = c.last + c.dt)

theorem clock_step (dtLine t h : F) (hd : 0 < dtLine) (hh : 0 ≤ h) (c : Clock F)
    (hc : c.Ok dtLine t) :
    let c' := (if (c.setMask h).mask then { c.setMask h with last := t } else c.setMask h)
    c'.Ok dtLine (t + h) ∧ (c'.last = t ∨ t + h - c'.last < 999 / 1000 * dtLine) := by
  obtain ⟨h1, h2⟩ := hc
  simp only [Clock.setMask, h1]
  by_cases hm : c.dt + h ≥ 999 / 1000 * dtLine
  · rw [if_pos hm]
    exact ⟨⟨rfl, Or.inr rfl⟩, Or.inl rfl⟩
  · rw [if_neg hm]
    simp only [Bool.false_eq_true, if_false]
    have hlt := not_le.mp hm
    have : ¬ c.dt ≥ dtLine := by intro h; linarith
    have hl := h2.resolve_left this
    refine ⟨⟨rfl, Or.inr ?_⟩, Or.inr ?_⟩
    · rw [hl]; ring
    · rw [hl]; linarith

/-- C11 for lines: with the local Euler scheme, for every number of lines, every
local time step of each line and every sequence of internal steps, the derivative
used for a line in the last step was either computed at the beginning of that very
step, or it is so recent that even at the end of the step its age is less than 0.999
times the local time step of the line. -/
theorem C11_derivative_age_partial (dts : List F) (hd : ∀ d ∈ dts, 0 < d) (t0 : F) (hs : List F)
    (hh : ∀ h ∈ hs, 0 ≤ h) (h : F) (h0 : 0 ≤ h) :
    let s := localRun t0 hs (dts.map fun d => Clock.line d t0)
    ∀ (i : ℕ) (d : F) (c : Clock F), dts[i]? = some d → (localStep s.1 h s.2)[i]? = some c →
      c.last = s.1 ∨ s.1 + h - c.last < 999 / 1000 * d := by
  have key : ∀ (hs : List F) (hh : ∀ h ∈ hs, 0 ≤ h) (t : F) (cs : List (Clock F)),
      (∀ (i : ℕ) (d : F) (c : Clock F), dts[i]? = some d → cs[i]? = some c → c.Ok d t) →
      ∀ (i : ℕ) (d : F) (c : Clock F), dts[i]? = some d → (localRun t hs cs).2[i]? = some c →
        c.Ok d (localRun t hs cs).1 := by
    intro hs
    induction hs with
    | nil => intro _ t cs h; exact h
    | cons a l ih =>
      intro hh t cs hcs
      apply ih (fun h hm => hh h (by simp [hm]))
      intro i d c hd' hc
      simp only [localStep, List.getElem?_map, Option.map_eq_some_iff] at hc
      obtain ⟨c0, hc0, rfl⟩ := hc
      exact (clock_step d t a (hd d (List.mem_of_getElem? hd')) (hh a (by simp)) c0
        (hcs i d c0 hd' hc0)).1
  intro s i d c hd' hc
  simp only [localStep, List.getElem?_map, Option.map_eq_some_iff] at hc
  obtain ⟨c0, hc0, rfl⟩ := hc
  refine (clock_step d s.1 h (hd d (List.mem_of_getElem? hd')) h0 c0 ?_).2
  refine key hs hh t0 _ ?_ i d c0 hd' hc0
  intro i d c hd1 hc1
  rw [List.getElem?_map, hd1] at hc1
  simp only [Option.map_some, Option.some.injEq] at hc1
  subst hc1
  exact ⟨rfl, Or.inl le_rfl⟩

/-- C11 for points, rods and bodies: evaluated at every internal step. -/
theorem C11_others_every_step (n : ℕ) (t0 : F) (hs : List F) (hh : ∀ h ∈ hs, 0 ≤ h) (h : F)
    (h0 : 0 ≤ h) :
    let s := localRun t0 hs (List.replicate n (Clock.other t0))
    ∀ c ∈ localStep s.1 h s.2, c.mask = true ∧ c.last = s.1 := by
  have stp : ∀ (c : Clock F) (t h : F), 0 ≤ h → (c.dt0 = 0 ∧ 0 ≤ c.dt) →
      let c' := (if (c.setMask h).mask then { c.setMask h with last := t } else c.setMask h)
      (c'.dt0 = 0 ∧ 0 ≤ c'.dt) ∧ c'.mask = true ∧ c'.last = t := by
    rintro c t h hh ⟨h1, h2⟩
    simp only [Clock.setMask, h1]
    have hp : c.dt + h ≥ 0 := by linarith
    simp only [if_pos hp]
    exact ⟨⟨rfl, hh⟩, rfl, rfl⟩
  have key : ∀ (hs : List F) (hh : ∀ h ∈ hs, 0 ≤ h) (t : F) (cs : List (Clock F)),
      (∀ c ∈ cs, c.dt0 = 0 ∧ 0 ≤ c.dt) → ∀ c ∈ (localRun t hs cs).2, c.dt0 = 0 ∧ 0 ≤ c.dt := by
    intro hs
    induction hs with
    | nil => intro _ t cs h; exact h
    | cons a l ih =>
      intro hh t cs hcs
      apply ih (fun h hm => hh h (by simp [hm]))
      intro c hc
      obtain ⟨c0, hc0, rfl⟩ := List.mem_map.mp hc
      exact (stp c0 t a (hh a (by simp)) (hcs c0 hc0)).1
  intro s c hc
  obtain ⟨c0, hc0, rfl⟩ := List.mem_map.mp hc
  refine (stp c0 s.1 h h0 (key hs hh t0 _ ?_ c0 hc0)).2
  intro c hc
  rw [List.eq_of_mem_replicate hc]
  exact ⟨rfl, le_rfl⟩

/-- non-vacuity of C11: a line with local time step 5 and internal steps of 1.  It is
evaluated at 0; at 1, 2 and 3 the derivative of time 0 is reused; at 4 it is evaluated
again. -/
example : (localRun (0 : ℚ) [1, 1, 1, 1] [Clock.line 5 0]).2.map (·.last) = [0] ∧
    (localRun (0 : ℚ) [1, 1, 1, 1, 1] [Clock.line 5 0]).2.map (·.last) = [4] := by
  norm_num [localRun, localStep, Clock.line, Clock.setMask]

end MD.Motion
