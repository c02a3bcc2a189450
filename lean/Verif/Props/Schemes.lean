import Verif.Props.Time
import Mathlib.Algebra.Module.LinearMap.Defs
import Mathlib.Algebra.Module.Prod
import Mathlib.Tactic.Abel

/-!
# Properties C08-C10: what the time schemes integrate exactly
-/

set_option linter.unusedSimpArgs false
set_option linter.unusedSectionVars false

namespace MD.Time

variable {K E M : Type} [Field K] [CharZero K] [AddCommGroup E] [Module K E]
variable (mc : Machine K E M) (ax : Aux K E)

/-! ## Specification -/

/-- The rate of change computed by the objects is `f t y` at time `t` and state
`y`, whatever their memory. -/
def RateIs (f : K → E → E) : Prop :=
  ∀ t tl e m, (mc.eval (mc.update t tl e m)).1 = f t e

/-- several internal steps -/
def run (sc : Scheme K) (hs : List K) (s : Sim K E M) : Sim K E M :=
  hs.foldl (fun s h => stepOf mc ax sc h s) s

/-- The operations of the second order schemes and the masks leave the constant
rate `c` alone. -/
structure AuxOk (c : E) : Prop where
  newmark : ∀ g b h, ax.newmark g b c c h = c
  wilson : ∀ tau h, ax.wilson c c tau h = c
  sel : ax.sel c c = c
  sub : ∀ (x : E) (k : K), ax.ssub x (k • c) = x - k • c

/-- The derivatives that the scheme reuses are already those of the motion:
nothing for one-step schemes, the stored derivative for the schemes that start
from it. -/
def Started (sc : Scheme K) (c : E) (s : Sim K E M) : Prop :=
  match sc with
  | .euler | .rk2 | .rk4 => True
  | .ab _ => s.n = 0 ∨ s.rd 0 = c
  | .heun | .leuler | .newmark _ _ _ | .wilson _ _ => s.rd 0 = c
  | .impEuler iters _ => 1 ≤ iters ∨ s.rd 0 = c
  | .anderson iters _ =>
    iters = 1 ∨ ((s.rd 1 = c ∨ ∀ x y, ax.conv x y = false) ∧ (1 ≤ iters ∨ s.rd 0 = c))

/-! ## One step of each explicit scheme -/

section
variable {f : K → E → E} (hf : RateIs mc f) (dt : K) (s : Sim K E M)
include hf

theorem euler_eq : (euler mc dt s).r 0 = s.r 0 + dt • f s.t (s.r 0) := by
  simp [euler, upd, clc, setR, setRd, addT, fin, Function.update_apply, hf _ _ _ _]

theorem heun_eq : (heun mc dt s).r 0 = s.r 0 + dt • s.rd 0
    + (1 / 2 * dt) • (f s.t (s.r 0 + dt • s.rd 0) - s.rd 0) ∧
    (heun mc dt s).rd 0 = f s.t (s.r 0 + dt • s.rd 0) := by
  simp [heun, upd, clc, setR, setRd, addT, fin, Function.update_apply, hf _ _ _ _]

theorem rk2_eq : (rk2 mc dt s).r 0 = s.r 0
    + dt • f (s.t + 1 / 2 * dt) (s.r 0 + (1 / 2 * dt) • f s.t (s.r 0)) := by
  simp [rk2, upd, clc, setR, setRd, addT, fin, Function.update_apply, hf _ _ _ _]

theorem rk4_eq : (rk4 mc dt s).r 0 =
    (let k1 := f s.t (s.r 0)
     let k2 := f (s.t + 1 / 2 * dt) (s.r 0 + (1 / 2 * dt) • k1)
     let k3 := f (s.t + 1 / 2 * dt) (s.r 0 + (1 / 2 * dt) • k2)
     let k4 := f (s.t + 1 / 2 * dt + 1 / 2 * dt) (s.r 0 + dt • k3)
     s.r 0 + (dt / 6) • (k1 + k4) + (dt / 3) • (k2 + k3)) := by
  simp [rk4, upd, clc, setR, setRd, addT, fin, Function.update_apply, hf _ _ _ _]

theorem ab_eq (order : ℕ) : (ab mc ax order dt s).r 0 =
      abFormula ax.ssub s.n dt (s.r 0) (fun k => if k = 0 then f s.t (s.r 0) else s.rd 0) ∧
    (ab mc ax order dt s).rd 0 = f s.t (s.r 0) ∧ (ab mc ax order dt s).n = min (s.n + 1) order := by
  refine ⟨?_, ?_, rfl⟩
  · simp only [ab, upd, clc, setR, setRd, shift, addT, fin, Function.update_apply, hf _ _ _ _,
      if_true]
    rcases s with ⟨t, tl, r, rd, n, m⟩
    match n with
    | 0 => simp [abFormula]
    | 1 => simp [abFormula]
    | 2 => simp [abFormula]
    | 3 => simp [abFormula]
    | n + 4 => simp [abFormula]
  · simp [ab, upd, clc, setR, setRd, shift, addT, fin, Function.update_apply, hf _ _ _ _]
end

/-! ## C08: constant rate -/

theorem abFormula_const (sub : E → E → E) (n : ℕ) (dt : K) (r0 c : E)
    (hs : ∀ (x : E) (k : K), sub x (k • c) = x - k • c) :
    abFormula sub n dt r0 (fun _ => c) = r0 + dt • c := by
  match n with
  | 0 => rfl
  | 1 => simp only [abFormula, hs]; module
  | 2 => simp only [abFormula, hs]; module
  | 3 => simp only [abFormula, hs]; module
  | n + 4 => simp only [abFormula, hs]; module

theorem impLoop_rd (c : E) (hf : RateIs mc fun _ _ => c) (iters : ℕ) (fac dt : K) (s : Sim K E M)
    (hi : 1 ≤ iters ∨ s.rd 0 = c) :
    ((List.range iters).foldl (fun s i => impBody mc ax iters fac dt i s) s).rd 0 = c := by
  cases iters with
  | zero => simpa using hi
  | succ n =>
    rw [foldl_range_succ]
    unfold impBody
    simp only
    rw [if_neg (by omega)]
    simp [upd, clc, setR, Function.update_apply, hf _ _ _ _]

theorem newmarkLoop_rd (c : E) (hf : RateIs mc fun _ _ => c) (iters : ℕ) (g b dt : K)
    (s : Sim K E M) (h0 : s.rd 0 = c) (h1 : s.rd 1 = c) (h2 : s.rd 2 = c) (l : List ℕ) :
    (l.foldl (fun s i => newmarkBody mc ax iters g b dt i s) s).rd 0 = c ∧
    (l.foldl (fun s i => newmarkBody mc ax iters g b dt i s) s).rd 1 = c ∧
    (l.foldl (fun s i => newmarkBody mc ax iters g b dt i s) s).rd 2 = c := by
  apply foldl_inv (fun s : Sim K E M => s.rd 0 = c ∧ s.rd 1 = c ∧ s.rd 2 = c) _ _ l s ⟨h0, h1, h2⟩
  rintro s i ⟨h0, h1, h2⟩
  unfold newmarkBody
  simp only
  split <;> simp [upd, clc, setR, setRd, Function.update_apply, hf _ _ _ _, h0, h1, h2, mix_self]

theorem wilsonLoop_rd (c : E) (hf : RateIs mc fun _ _ => c) (iters : ℕ) (tdt : K)
    (s : Sim K E M) (h0 : s.rd 0 = c) (h1 : s.rd 1 = c) (l : List ℕ) :
    (l.foldl (fun s i => wilsonBody mc ax iters tdt i s) s).rd 0 = c ∧
    (l.foldl (fun s i => wilsonBody mc ax iters tdt i s) s).rd 1 = c := by
  apply foldl_inv (fun s : Sim K E M => s.rd 0 = c ∧ s.rd 1 = c) _ _ l s ⟨h0, h1⟩
  rintro s i ⟨h0, h1⟩
  unfold wilsonBody
  simp only
  split <;> simp [upd, clc, setR, setRd, Function.update_apply, hf _ _ _ _, h0, h1, mix_self]

theorem andLoop_rd (c : E) (hf : RateIs mc fun _ _ => c) (iters : ℕ) (fac dt : K) (k : ℕ)
    (hk : k ≤ iters) (g0 : E × E) (s : Sim K E M)
    (h1 : iters = 1 ∨ s.rd 1 = c ∨ ∀ x y, ax.conv x y = false) (h0 : 1 ≤ k ∨ s.rd 0 = c) :
    (andLoop mc ax iters fac dt k g0 s).rd 0 = c ∧
      (s.rd 1 = c → (andLoop mc ax iters fac dt k g0 s).rd 1 = c) := by
  induction k generalizing s g0 with
  | zero => exact ⟨by simpa [andLoop] using h0, fun h => by simpa [andLoop] using h⟩
  | succ k ih =>
    unfold andLoop
    simp only
    split
    · rename_i hi
      generalize firstRes (iters - (k + 1)) _ g0 = g1
      by_cases hc : ax.conv g1 ((clc mc 0 (upd mc (fac * dt) 1
          (setR 1 (s.r 0 + (fac * dt) • s.rd 0) s))).rd 1,
          (clc mc 0 (upd mc (fac * dt) 1 (setR 1 (s.r 0 + (fac * dt) • s.rd 0) s))).rd 0) = true
      · rw [if_pos hc]
        rcases h1 with h1 | h1 | h1
        · omega
        · simp [upd, clc, setR, setRd, Function.update_apply, hf _ _ _ _, h1, mix_self]
        · rw [h1] at hc; cases hc
      · rw [if_neg hc]
        have key := ih (by omega) g1 (setRd 1 ((setRd 0 (mix
          ((clc mc 0 (upd mc (fac * dt) 1 (setR 1 (s.r 0 + (fac * dt) • s.rd 0) s))).rd 0)
          ((clc mc 0 (upd mc (fac * dt) 1 (setR 1 (s.r 0 + (fac * dt) • s.rd 0) s))).rd 1)
          (ax.relax iters (iters - (k + 1))))
          (clc mc 0 (upd mc (fac * dt) 1 (setR 1 (s.r 0 + (fac * dt) • s.rd 0) s)))).rd 0)
          (setRd 0 (mix
          ((clc mc 0 (upd mc (fac * dt) 1 (setR 1 (s.r 0 + (fac * dt) • s.rd 0) s))).rd 0)
          ((clc mc 0 (upd mc (fac * dt) 1 (setR 1 (s.r 0 + (fac * dt) • s.rd 0) s))).rd 1)
          (ax.relax iters (iters - (k + 1))))
          (clc mc 0 (upd mc (fac * dt) 1 (setR 1 (s.r 0 + (fac * dt) • s.rd 0) s)))))
          (by
            rcases h1 with h1 | h1 | h1
            · left; exact h1
            · right; left
              simp [upd, clc, setR, setRd, Function.update_apply, hf _ _ _ _, h1, mix_self]
            · right; right; exact h1)
          (by left; omega)
        refine ⟨key.1, fun h => key.2 ?_⟩
        simp [upd, clc, setR, setRd, Function.update_apply, hf _ _ _ _, h, mix_self]
    · simp [upd, clc, setR, setRd, Function.update_apply, hf _ _ _ _]

theorem const_step (c : E) (hf : RateIs mc fun _ _ => c) (hax : AuxOk ax c) (sc : Scheme K)
    (dt : K) (s : Sim K E M) (hs : Started ax sc c s) :
    (stepOf mc ax sc dt s).r 0 = s.r 0 + dt • c ∧ Started ax sc c (stepOf mc ax sc dt s) := by
  cases sc with
  | euler => exact ⟨euler_eq mc hf dt s, trivial⟩
  | rk2 => exact ⟨rk2_eq mc hf dt s, trivial⟩
  | rk4 =>
    refine ⟨?_, trivial⟩
    have := rk4_eq mc hf dt s
    simp only at this
    simp only [stepOf]
    rw [this]
    module
  | heun =>
    simp only [Started] at hs
    have := heun_eq mc hf dt s
    simp only [stepOf, Started]
    rw [this.1, this.2, hs]
    exact ⟨by module, rfl⟩
  | leuler =>
    simp only [Started] at hs
    simp [stepOf, Started, leuler, upd, clcSel, setR, addT, fin, Function.update_apply, hf _ _ _ _,
      hs, hax.sel]
  | ab order =>
    simp only [Started] at hs
    have h := ab_eq mc ax hf dt s order
    simp only [stepOf, Started]
    refine ⟨?_, Or.inr h.2.1⟩
    rw [h.1]
    rcases hs with hs | hs
    · rw [hs]; rfl
    · rw [hs]
      simp only [ite_self]
      exact abFormula_const _ _ _ _ _ hax.sub
  | impEuler iters fac =>
    simp only [Started] at hs
    simp only [stepOf, Started, impEuler, upd, clc, setR, fin, addT, Function.update_self]
    have hk := impLoop_keep mc ax iters fac dt (List.range iters)
      (setRd 1 ((addT (fac * dt) s).rd 0) (addT (fac * dt) s))
    have hr := impLoop_rd mc ax c hf iters fac dt
      (setRd 1 ((addT (fac * dt) s).rd 0) (addT (fac * dt) s)) (by
        rcases hs with h | h
        · left; exact h
        · right; simpa [setRd, addT, Function.update_apply] using h)
    simp only [addT] at hk hr
    rw [hr, hk.2.2.2]
    exact ⟨rfl, Or.inr rfl⟩
  | anderson iters fac =>
    simp only [Started] at hs
    simp only [stepOf, Started, anderson, upd, clc, setR, fin, addT, Function.update_self]
    have hk := andLoop_keep' mc ax iters fac dt iters (0, 0) (addT (fac * dt) s)
    have hr := andLoop_rd mc ax c hf iters fac dt iters (le_refl _) (0, 0) (addT (fac * dt) s) (by
        rcases hs with h | ⟨h, -⟩
        · left; exact h
        · right; exact h) (by
        rcases hs with h | ⟨-, h⟩
        · left; omega
        · exact h)
    simp only [addT] at hk hr
    rw [hr.1, hk.2.2.2]
    refine ⟨rfl, ?_⟩
    rcases hs with h | ⟨h | h, h'⟩
    · left; exact h
    · right; exact ⟨Or.inl (hr.2 h), Or.inr rfl⟩
    · right; exact ⟨Or.inr h, Or.inr rfl⟩
  | newmark iters g b =>
    simp only [Started] at hs
    simp only [stepOf, Started, newmark, upd, clc, setR, setRd, fin, addT, Function.update_self]
    have hk := newmarkLoop_keep mc ax iters g b dt (List.range iters)
      (setRd 2 (s.rd 0) (addT dt (setRd 1 (s.rd 0) s)))
    have hr := newmarkLoop_rd mc ax c hf iters g b dt
      (setRd 2 (s.rd 0) (addT dt (setRd 1 (s.rd 0) s)))
      (by simpa [setRd, addT, Function.update_apply] using hs)
      (by simpa [setRd, addT, Function.update_apply] using hs)
      (by simpa [setRd, addT, Function.update_apply] using hs) (List.range iters)
    simp only [addT, setRd] at hk hr
    simp only [Function.update_apply, if_neg (show (0 : ℕ) ≠ 1 by decide)] at hk hr ⊢
    rw [hr.1, hr.2.1, hk.2.2.2, hax.newmark]
    exact ⟨rfl, rfl⟩
  | wilson iters th =>
    simp only [Started] at hs
    simp only [stepOf, Started, wilson, upd, clc, setR, setRd, fin, addT, Function.update_self]
    have hk := wilsonLoop_keep mc ax iters (th * dt) (List.range iters)
      (setRd 1 (s.rd 0) (addT (th * dt) s))
    have hr := wilsonLoop_rd mc ax c hf iters (th * dt) (setRd 1 (s.rd 0) (addT (th * dt) s))
      (by simpa [setRd, addT, Function.update_apply] using hs)
      (by simpa [setRd, addT, Function.update_apply] using hs) (List.range iters)
    simp only [addT, setRd] at hk hr
    rw [hr.1, hr.2, hk.2.2.2, hax.wilson]
    exact ⟨rfl, rfl⟩

/-- C08 for every scheme, constant rate, list of step sizes and initial state,
provided the derivatives the scheme reuses are those of the motion (`Started`).
Missing with respect to C08: the first steps of Heun, Newmark, Wilson and of
Anderson with early stop, see `C08_startup_deficit` and
`C08_anderson_early_stop_false`. -/
theorem C08_steady_velocity_partial (c : E) (hf : RateIs mc fun _ _ => c) (hax : AuxOk ax c)
    (sc : Scheme K) (hs : List K) (s : Sim K E M) (hst : Started ax sc c s) :
    (run mc ax sc hs s).r 0 = s.r 0 + hs.sum • c := by
  induction hs generalizing s with
  | nil => simp [run]
  | cons h hs ih =>
    have h1 := const_step mc ax c hf hax sc h s hst
    have := ih (stepOf mc ax sc h s) h1.2
    simp only [run, List.foldl_cons] at this ⊢
    rw [this, h1.1, List.sum_cons, add_smul, add_assoc]

/-- The one-step and multistep schemes need no start-up: C08 holds from the very
first step of a new system (`n = 0`), with at least one iteration. -/
theorem C08_from_the_start (c : E) (hf : RateIs mc fun _ _ => c) (hax : AuxOk ax c)
    (sc : Scheme K) (hs : List K) (s : Sim K E M) (hn : s.n = 0)
    (hsc : sc = .euler ∨ sc = .rk2 ∨ sc = .rk4 ∨ (∃ o, sc = .ab o) ∨
      (∃ it fac, sc = .impEuler it fac ∧ 1 ≤ it)) :
    (run mc ax sc hs s).r 0 = s.r 0 + hs.sum • c := by
  apply C08_steady_velocity_partial mc ax c hf hax
  rcases hsc with rfl | rfl | rfl | ⟨o, rfl⟩ | ⟨it, fac, rfl, h⟩
  · trivial
  · trivial
  · trivial
  · exact Or.inl hn
  · exact Or.inl h

/-- Start-up: the first step of a system whose stored derivative is still zero (the
integrator never evaluates it at initialisation) moves the state half of what it
should with Heun's scheme. -/
theorem C08_startup_deficit (c : E) (hf : RateIs mc fun _ _ => c) (h : K)
    (s : Sim K E M) (h0 : s.rd 0 = 0) :
    (stepOf mc ax .heun h s).r 0 = s.r 0 + (h / 2) • c := by
  simp only [stepOf]
  rw [(heun_eq mc hf h s).1, h0]
  module

/-! ## Lines and points: the second order operations -/

section second
variable {V : Type} [AddCommGroup V] [Module K V]

/-- `StateVarDeriv<vec>::Newmark`, source/State.cpp:442-454 (and 484-500 for the
nodes of a line): `vel + dt * acc_beta`, `acc_gamma`. -/
def newmarkPL (g b : K) (d0 d1 : V × V) (h : K) : V × V :=
  (d0.1 + h • ((1 / 2 - b) • d0.2 + b • d1.2), (1 - g) • d0.2 + g • d1.2)

/-- `StateVarDeriv<vec>::Wilson`, source/State.cpp:502-513 (and 543-562). -/
def wilsonPL (d0 d1 : V × V) (tau h : K) : V × V :=
  (d0.1 + (1 / 2 * h) • ((1 - 1 / 3 * (tau / h)) • d0.2 + (1 / 3 * (tau / h)) • d1.2),
   (1 - 1 / 2 * (tau / h)) • d0.2 + (1 / 2 * (tau / h)) • d1.2)

/-- For points and lines a steady velocity (zero acceleration) satisfies `AuxOk`
with the operations of the code. -/
theorem C08_auxOk_points_lines (v : V) (relax : ℕ → ℕ → K) (conv : (V × V) × V × V → (V × V) × V × V → Bool)
    (sel : V × V → V × V → V × V) (hsel : ∀ x, sel x x = x) :
    AuxOk (⟨relax, conv, newmarkPL, wilsonPL, sel, (· - ·)⟩ : Aux K (V × V)) (v, 0) := by
  constructor
  · intro g b h; simp [newmarkPL]
  · intro tau h; simp [wilsonPL]
  · exact hsel _
  · exact fun _ _ => rfl

/-- Newmark's scheme does not move at all in its first step (stored derivative
zero), for any number of iterations and any parameters, when the acceleration is
zero. -/
theorem C08_newmark_startup (v : V) (mc : Machine K (V × V) M)
    (hf : RateIs mc fun _ _ => (v, 0)) (relax : ℕ → ℕ → K) (conv : (V × V) × V × V → (V × V) × V × V → Bool)
    (sel : V × V → V × V → V × V) (iters : ℕ) (g b h : K) (s : Sim K (V × V) M)
    (h0 : s.rd 0 = 0) :
    (stepOf mc ⟨relax, conv, newmarkPL, wilsonPL, sel, (· - ·)⟩ (.newmark iters g b) h s).r 0 = s.r 0 := by
  set ax : Aux K (V × V) := ⟨relax, conv, newmarkPL, wilsonPL, sel, (· - ·)⟩ with hax
  simp only [stepOf, newmark, upd, clc, setR, setRd, fin, addT, Function.update_self]
  have hk := newmarkLoop_keep mc ax iters g b h (List.range iters)
    (setRd 2 (s.rd 0) (addT h (setRd 1 (s.rd 0) s)))
  have hr := foldl_inv (fun s : Sim K (V × V) M => s.rd 0 = 0 ∧ (s.rd 1).2 = 0 ∧ (s.rd 2).2 = 0)
    (fun s i => newmarkBody mc ax iters g b h i s) (by
      rintro s i ⟨h0, h1, h2⟩
      unfold newmarkBody
      simp only
      split <;> simp [upd, clc, setR, setRd, Function.update_apply, hf _ _ _ _, h0, h1, h2, mix])
    (List.range iters) (setRd 2 (s.rd 0) (addT h (setRd 1 (s.rd 0) s)))
    (by simp [setRd, addT, Function.update_apply, h0])
  simp only [addT, setRd] at hk hr
  simp only [Function.update_apply, if_neg (show (0 : ℕ) ≠ 1 by decide)] at hk hr ⊢
  rw [hr.1, hk.2.2.2]
  simp only [hax] at hr
  simp [hax, newmarkPL, hr.2.1]

end second

/-- C08 as stated (from any initial state) is false: Heun's scheme, unit rate, one
step of length 1. -/
theorem C08_as_stated_false : ¬ ∀ (mc : Machine ℚ ℚ Unit) (ax : Aux ℚ ℚ) (sc : Scheme ℚ)
    (c : ℚ) (hs : List ℚ) (s : Sim ℚ ℚ Unit), RateIs mc (fun _ _ => c) → AuxOk ax c → s.n = 0 →
    s.rd = (fun _ => 0) → (run mc ax sc hs s).r 0 = s.r 0 + hs.sum • c := by
  intro h
  have := h constMachine ⟨fun _ _ => 0, fun _ _ => false, fun _ _ a _ _ => a, fun a _ _ _ => a,
    fun a _ => a, (· - ·)⟩ .heun 3 [1] ⟨0, 0, fun _ => 0, fun _ => 0, 0, ()⟩ (fun _ _ _ _ => rfl)
    ⟨fun _ _ _ => rfl, fun _ _ => rfl, rfl, fun _ _ => rfl⟩ rfl rfl
  rw [run, List.foldl_cons, List.foldl_nil, C08_startup_deficit _ _ 3 (fun _ _ _ _ => rfl) 1 _ rfl]
    at this
  norm_num at this

/-- What multiplies the rate in the step after `n` steps of an Adams-Bashforth scheme when the
subtractions are additions. -/
def abRigid : ℕ → K
  | 0 => 1
  | 1 => 2
  | 2 => 11 / 3
  | 3 => 20 / 3
  | _ => 551 / 45

/-- Rods and bodies with the Adams-Bashforth schemes: the difference of their states is a sum
(source/State.cpp:113-121), so that at a constant rate every step but the first goes too far: in the
second step twice as far as the rate says, later `11/3` times (`ab2`), `20/3` times (`ab3`) and `551/45`
times (`ab4`). -/
theorem C08_rigid_ab_false (c : E) (hf : RateIs mc fun _ _ => c) (hsub : ∀ a b, ax.ssub a b = a + b)
    (order : ℕ) (h : K) (s : Sim K E M) (hs : s.n = 0 ∨ s.rd 0 = c) :
    (stepOf mc ax (.ab order) h s).r 0 = s.r 0 + (h * abRigid s.n) • c ∧
    (stepOf mc ax (.ab order) h s).rd 0 = c ∧
    (stepOf mc ax (.ab order) h s).n = min (s.n + 1) order := by
  have e := ab_eq mc ax hf h s order
  simp only [stepOf]
  refine ⟨?_, e.2⟩
  rw [e.1]
  rcases hs with hs | hs
  · rw [hs]; simp [abFormula, abRigid]
  · rw [hs]
    simp only [ite_self]
    match s.n with
    | 0 => simp [abFormula, abRigid]
    | 1 => simp only [abFormula, abRigid, hsub]; module
    | 2 => simp only [abFormula, abRigid, hsub]; module
    | 3 => simp only [abFormula, abRigid, hsub]; module
    | n + 4 => simp only [abFormula, abRigid, hsub]; module

/-- non-vacuity: two steps of `ab2` at the rate 3 from 5: at 8 and then at 14 instead of 11 -/
example (ax : Aux ℚ ℚ) (hsub : ∀ a b, ax.ssub a b = a + b) :
    (run constMachine ax (.ab 2) [1, 1] ⟨0, 0, fun _ => 5, fun _ => 0, 0, ()⟩).r 0 = 14 := by
  have h1 := C08_rigid_ab_false constMachine ax 3 (fun _ _ _ _ => rfl) hsub 2 1
    ⟨0, 0, fun _ => 5, fun _ => 0, 0, ()⟩ (Or.inl rfl)
  have h2 := C08_rigid_ab_false constMachine ax 3 (fun _ _ _ _ => rfl) hsub 2 1 _ (Or.inr h1.2.1)
  simp only [run, List.foldl_cons, List.foldl_nil]
  rw [h2.1, h1.1, h1.2.2]
  norm_num [abRigid]

/-- the objects of a point drifting with velocity 1 and no acceleration -/
def driftMachine : Machine ℚ (ℚ × ℚ) Unit := ⟨fun _ _ _ _ => (), fun _ => ((1, 0), ()), fun _ => ()⟩

/-- Anderson's scheme tests its convergence on the accelerations only
(source/Time.hpp:1286-1290, 1352-1390): a point drifting at constant velocity, with
zero stored derivative, has residual 0 at the first iteration, stops, and keeps
the relaxed velocity `(1 - 0.9/2)`. -/
theorem C08_anderson_early_stop_false :
    (stepOf driftMachine ⟨fun it _ => 9 / 10 * (1 - 1 / it), fun _ x => |x.2.2 - x.1.2| < 1 / 100,
      newmarkPL, wilsonPL, fun a _ => a, (· - ·)⟩ (.anderson 2 (1 / 2)) 1
      ⟨0, 0, fun _ => 0, fun _ => 0, 0, ()⟩).r 0 = (11 / 20, 0) := by
  simp [stepOf, anderson, andLoop, upd, clc, setR, setRd, addT, fin, Function.update_apply,
    driftMachine, mix]
  norm_num

/-- non-vacuity of C08: AB3, three steps of a constant rate 3 -/
example (ax : Aux ℚ ℚ) (hax : AuxOk ax 3) :
    (run constMachine ax (.ab 3) [1, 1, 1] ⟨0, 0, fun _ => 5, fun _ => 0, 0, ()⟩).r 0 = 14 := by
  rw [C08_steady_velocity_partial constMachine ax 3 (fun _ _ _ _ => rfl) hax (.ab 3) _ _
    (show _ ∨ _ from Or.inl rfl)]
  norm_num

/-! ## C10: equilibrium -/

/-- `x` is an equilibrium: the objects answer zero derivative there at any time. -/
def Equilibrium (x : E) : Prop := ∀ t tl m, (mc.eval (mc.update t tl x m)).1 = 0

/-- the system is at `x` and no stored derivative is different from zero -/
def AtRest (x : E) (s : Sim K E M) : Prop := s.r 0 = x ∧ ∀ k, s.rd k = 0

theorem rest_loop (x : E) (body : Sim K E M → ℕ → Sim K E M)
    (hb : ∀ s i, AtRest x s → AtRest x (body s i)) (l : List ℕ) (s : Sim K E M) (h : AtRest x s) :
    AtRest x (l.foldl body s) := foldl_inv (AtRest x) body hb l s h

theorem rest_step (x : E) (hx : Equilibrium mc x) (hax : AuxOk ax (0 : E)) (sc : Scheme K) (dt : K)
    (s : Sim K E M) (hs : AtRest x s) : AtRest x (stepOf mc ax sc dt s) := by
  have upd0 : ∀ (d : K) (s : Sim K E M), AtRest x s → AtRest x (upd mc d 0 s) := fun d s h => h
  have eval0 : ∀ (d : K) (k : ℕ) (s : Sim K E M), s.r k = x →
      (mc.eval (upd mc d k s).m).1 = 0 := fun d k s h => by simp only [upd, h, hx _ _ _]
  obtain ⟨h0, hd⟩ := hs
  cases sc with
  | euler =>
    have e := eval0 0 0 s h0
    simp only [upd, add_zero, h0] at e
    constructor
    · simp [stepOf, euler, upd, clc, setR, addT, fin, Function.update_apply, e, h0]
    · intro k
      simp only [stepOf, euler, upd, clc, setR, addT, fin, Function.update_apply]
      split <;> simp [e, hd, h0]
  | leuler =>
    have e := eval0 0 0 s h0
    simp only [upd, add_zero, h0] at e
    constructor
    · simp [stepOf, leuler, upd, clcSel, setR, addT, fin, Function.update_apply, e, h0, hd,
        hax.sel]
    · intro k
      simp only [stepOf, leuler, upd, clcSel, setR, addT, fin, Function.update_apply]
      split <;> simp [e, hd, h0, hax.sel]
  | heun =>
    have e := hx s.t (s.tl + 0) s.m
    constructor
    · simp [stepOf, heun, upd, clc, setR, setRd, addT, fin, Function.update_apply, h0, hd, hx _ _ _]
    · intro k
      simp only [stepOf, heun, upd, clc, setR, setRd, addT, fin, Function.update_apply]
      split
      · simp [h0, hd, hx _ _ _]
      · split <;> simp [hd]
  | rk2 =>
    constructor
    · simp [stepOf, rk2, upd, clc, setR, setRd, addT, fin, Function.update_apply, h0, hd, hx _ _ _]
    · intro k
      simp only [stepOf, rk2, upd, clc, setR, setRd, addT, fin, Function.update_apply]
      split
      · simp [h0, hd, hx _ _ _]
      · split <;> simp [h0, hd, hx _ _ _]
  | rk4 =>
    constructor
    · simp [stepOf, rk4, upd, clc, setR, setRd, addT, fin, Function.update_apply, h0, hd, hx _ _ _]
    · intro k
      simp only [stepOf, rk4, upd, clc, setR, setRd, addT, fin, Function.update_apply]
      split
      · simp [h0, hd, hx _ _ _]
      · split
        · simp [h0, hd, hx _ _ _]
        · split
          · simp [h0, hd, hx _ _ _]
          · split <;> simp [h0, hd, hx _ _ _]
  | ab order =>
    constructor
    · have hz : s.rd = fun _ => 0 := funext hd
      have hu : ∀ k, Function.update (fun _ => (0 : E)) k 0 = fun _ : ℕ => (0 : E) :=
        fun k => Function.update_eq_self k _
      simp only [stepOf, ab, upd, clc, setR, setRd, shift, addT, fin, Function.update_self,
        hz, hu, hx _ _ _, h0]
      rw [abFormula_const _ _ _ _ _ hax.sub]; simp
    · intro k
      simp [stepOf, ab, upd, clc, setR, setRd, shift, addT, fin, Function.update_apply,
        hd, hx _ _ _, h0]
  | impEuler iters fac =>
    have hl := rest_loop x (fun s i => impBody mc ax iters fac dt i s) (by
      rintro s i ⟨h0, hd⟩
      unfold impBody
      simp only
      split
      · refine ⟨by simp [upd, clc, setR, setRd, Function.update_apply, h0], fun k => ?_⟩
        simp [upd, clc, setR, setRd, Function.update_apply, h0, hd, hx _ _ _, mix_zero]
      · refine ⟨by simp [upd, clc, setR, setRd, Function.update_apply, h0], fun k => ?_⟩
        simp [upd, clc, setR, setRd, Function.update_apply, h0, hd, hx _ _ _])
      (List.range iters) (setRd 1 ((addT (fac * dt) s).rd 0) (addT (fac * dt) s))
      ⟨by simp [setRd, addT, h0], fun k => by simp [setRd, addT, Function.update_apply, hd]⟩
    simp only [stepOf, impEuler]
    simp only [addT] at hl
    constructor
    · simp only [upd, setR, fin, addT, Function.update_self]
      rw [hl.1, hl.2]; simp
    · intro k
      simp only [upd, setR, fin, addT]
      exact hl.2 k
  | anderson iters fac =>
    have hl : ∀ (k : ℕ) (g0 : E × E) (s : Sim K E M), AtRest x s →
        AtRest x (andLoop mc ax iters fac dt k g0 s) := by
      intro k
      induction k with
      | zero => exact fun g0 s h => h
      | succ k ih =>
        rintro g0 s ⟨h0, hd⟩
        unfold andLoop
        simp only
        split
        · split
          · refine ⟨by simp [upd, clc, setR, setRd, Function.update_apply, h0], fun k => ?_⟩
            simp [upd, clc, setR, setRd, Function.update_apply, h0, hd, hx _ _ _, mix_zero]
          · apply ih
            refine ⟨by simp [upd, clc, setR, setRd, Function.update_apply, h0], fun k => ?_⟩
            simp [upd, clc, setR, setRd, Function.update_apply, h0, hd, hx _ _ _, mix_zero]
        · refine ⟨by simp [upd, clc, setR, setRd, Function.update_apply, h0], fun k => ?_⟩
          simp [upd, clc, setR, setRd, Function.update_apply, h0, hd, hx _ _ _]
    have hl' := hl iters (0, 0) (addT (fac * dt) s) ⟨h0, hd⟩
    simp only [stepOf, anderson]
    constructor
    · simp only [upd, setR, fin, addT, Function.update_self]
      simp only [addT] at hl'
      rw [hl'.1, hl'.2]; simp
    · intro k
      simp only [upd, setR, fin, addT]
      exact hl'.2 k
  | newmark iters g b =>
    have hl := rest_loop x (fun s i => newmarkBody mc ax iters g b dt i s) (by
      rintro s i ⟨h0, hd⟩
      unfold newmarkBody
      simp only
      split
      · refine ⟨by simp [upd, clc, setR, setRd, Function.update_apply, h0], fun k => ?_⟩
        simp [upd, clc, setR, setRd, Function.update_apply, h0, hd, hx _ _ _, mix_zero,
          hax.newmark]
      · refine ⟨by simp [upd, clc, setR, setRd, Function.update_apply, h0], fun k => ?_⟩
        simp [upd, clc, setR, setRd, Function.update_apply, h0, hd, hx _ _ _, hax.newmark])
      (List.range iters) (setRd 2 (s.rd 0) (addT dt (setRd 1 (s.rd 0) s)))
      ⟨by simp [setRd, addT, h0], fun k => by simp [setRd, addT, Function.update_apply, hd]⟩
    simp only [stepOf, newmark]
    simp only [addT, setRd] at hl
    simp only [addT, setRd, Function.update_apply, if_neg (show (0 : ℕ) ≠ 1 by decide)] at hl ⊢
    constructor
    · simp only [upd, setR, fin, Function.update_self]
      rw [hl.1, hl.2, hl.2, hax.newmark]; simp
    · intro k
      simp only [upd, setR, fin, Function.update_apply]
      split
      · exact hl.2 1
      · exact hl.2 k
  | wilson iters th =>
    have hl := rest_loop x (fun s i => wilsonBody mc ax iters (th * dt) i s) (by
      rintro s i ⟨h0, hd⟩
      unfold wilsonBody
      simp only
      split
      · refine ⟨by simp [upd, clc, setR, setRd, Function.update_apply, h0], fun k => ?_⟩
        simp [upd, clc, setR, setRd, Function.update_apply, h0, hd, hx _ _ _, mix_zero,
          hax.wilson]
      · refine ⟨by simp [upd, clc, setR, setRd, Function.update_apply, h0], fun k => ?_⟩
        simp [upd, clc, setR, setRd, Function.update_apply, h0, hd, hx _ _ _, hax.wilson])
      (List.range iters) (setRd 1 (s.rd 0) (addT (th * dt) s))
      ⟨by simp [setRd, addT, h0], fun k => by simp [setRd, addT, Function.update_apply, hd]⟩
    simp only [stepOf, wilson]
    simp only [addT, setRd] at hl
    constructor
    · simp only [upd, setR, setRd, addT, fin, Function.update_self]
      rw [hl.1, hl.2, hl.2, hax.wilson]; simp
    · intro k
      simp only [upd, setR, setRd, addT, fin, Function.update_apply]
      split
      · exact hl.2 1
      · exact hl.2 k

/-- C10 for every scheme, number of iterations and list of time steps: a system
at rest in equilibrium stays there.  `AuxOk ax 0` holds for points and lines
(`C10_auxOk_points_lines`).  Missing with respect to C10: rods and bodies with
the Newmark, Wilson and stationary schemes, see
`C10_rigid_newmark_false`. -/
theorem C10_equilibrium_partial (x : E) (hx : Equilibrium mc x) (hax : AuxOk ax (0 : E))
    (sc : Scheme K) (hs : List K) (s : Sim K E M) (h : AtRest x s) :
    (run mc ax sc hs s).r 0 = x := by
  suffices AtRest x (run mc ax sc hs s) from this.1
  induction hs generalizing s with
  | nil => exact h
  | cons a l ih => exact ih _ (rest_step mc ax x hx hax sc a s h)

/-- points and lines satisfy the hypothesis of `C10_equilibrium_partial` -/
theorem C10_auxOk_points_lines {V : Type} [AddCommGroup V] [Module K V] (relax : ℕ → ℕ → K)
    (conv : (V × V) × V × V → (V × V) × V × V → Bool) (sel : V × V → V × V → V × V) (hsel : ∀ x, sel x x = x) :
    AuxOk (⟨relax, conv, newmarkPL, wilsonPL, sel, (· - ·)⟩ : Aux K (V × V)) 0 :=
  C08_auxOk_points_lines (0 : V) relax conv sel hsel

/-- `StateVarDeriv<XYZQuat, vec6>::Newmark`, source/State.cpp:470-482: rate of
position and quaternion `(P × Q)`, acceleration `A`; `fromVec6` is
`XYZQuat::fromVec6` (source/Misc.hpp:295-298). -/
def newmarkRB {P Q A : Type} [AddCommGroup P] [AddCommGroup Q] [AddCommGroup A] [Module K A]
    (fromVec6 : A → P × Q) (g b : K) (d0 d1 : (P × Q) × A) (h : K) : (P × Q) × A :=
  (d0.1 + fromVec6 (h • ((1 / 2 - b) • d0.2 + b • d1.2)), (1 - g) • d0.2 + g • d1.2)

/-- `StateVarDeriv<XYZQuat, vec6>::Wilson`, source/State.cpp:527-541. -/
def wilsonRB {P Q A : Type} [AddCommGroup P] [AddCommGroup Q] [AddCommGroup A] [Module K A]
    (fromVec6 : A → P × Q) (d0 d1 : (P × Q) × A) (tau h : K) : (P × Q) × A :=
  (d0.1 + fromVec6 ((1 / 2 * h) • ((1 - 1 / 3 * (tau / h)) • d0.2 + (1 / 3 * (tau / h)) • d1.2)),
   (1 - 1 / 2 * (tau / h)) • d0.2 + (1 / 2 * (tau / h)) • d1.2)

/-- Rods and bodies in equilibrium do not stay there with `acaN`: the increment of
orientation, zero angles, is converted to the identity quaternion (`q1 ≠ 0`, real
part 1) and added to the rate: in one step the position is right but `h • q1` is
added to the quaternion, for every number of iterations. -/
theorem C10_rigid_newmark_false {P Q A : Type} [AddCommGroup P] [AddCommGroup Q] [AddCommGroup A]
    [Module K P] [Module K Q] [Module K A] (fromVec6 : A → P × Q) (q1 : Q)
    (h6 : fromVec6 0 = (0, q1)) (mc : Machine K ((P × Q) × A) M)
    (hf : RateIs mc fun _ _ => 0) (relax : ℕ → ℕ → K) (conv sel) (iters : ℕ) (g b h : K)
    (s : Sim K ((P × Q) × A) M) (hr : ∀ k, s.rd k = 0) :
    (stepOf mc ⟨relax, conv, newmarkRB fromVec6, wilsonRB fromVec6, sel, (· + ·)⟩ (.newmark iters g b) h s).r 0
      = s.r 0 + ((0, h • q1), 0) := by
  set ax : Aux K ((P × Q) × A) := ⟨relax, conv, newmarkRB fromVec6, wilsonRB fromVec6, sel, (· + ·)⟩ with hax
  simp only [stepOf, newmark, upd, clc, setR, setRd, fin, addT, Function.update_self]
  have hk := newmarkLoop_keep mc ax iters g b h (List.range iters)
    (setRd 2 (s.rd 0) (addT h (setRd 1 (s.rd 0) s)))
  have hl := newmarkLoop_rd mc ax 0 hf iters g b h
    (setRd 2 (s.rd 0) (addT h (setRd 1 (s.rd 0) s)))
    (by simp [setRd, addT, Function.update_apply, hr])
    (by simp [setRd, addT, Function.update_apply, hr])
    (by simp [setRd, addT, Function.update_apply, hr]) (List.range iters)
  simp only [addT, setRd] at hk hl
  simp only [Function.update_apply, if_neg (show (0 : ℕ) ≠ 1 by decide)] at hk hl ⊢
  rw [hl.1, hl.2.1, hk.2.2.2]
  simp [hax, newmarkRB, h6]

/-- non-vacuity of C10: the origin of `y' = -y` with the midpoint scheme -/
example (ax : Aux ℚ ℚ) (hax : AuxOk ax 0) :
    (run (⟨fun _ _ e _ => e, fun m => (-m, m), id⟩ : Machine ℚ ℚ ℚ) ax (.impEuler 3 (1 / 2)) [1, 2]
      ⟨0, 0, fun _ => 0, fun _ => 0, 0, 0⟩).r 0 = 0 :=
  C10_equilibrium_partial _ ax 0 (fun _ _ _ => neg_zero) hax _ _ _ ⟨rfl, fun _ => rfl⟩

/-! ## C09: order of the schemes -/

section order

/-- Primitive of the polynomial forcing `a + t b + t² c + t³ d`. -/
def prim (a b c d : E) (t : K) : E :=
  t • a + (t ^ 2 / 2) • b + (t ^ 3 / 3) • c + (t ^ 4 / 4) • d

/-- C09, RK2, forcing: linear in time forcing is integrated exactly over any list of
steps. -/
theorem C09_rk2_forcing (a b : E) (hf : RateIs mc fun t _ => a + t • b) (hs : List K)
    (s : Sim K E M) :
    (run mc ax .rk2 hs s).r 0 = s.r 0 + (prim a b 0 0 (s.t + hs.sum) - prim a b 0 0 s.t) := by
  induction hs generalizing s with
  | nil => simp [run]
  | cons h hs ih =>
    have h1 := rk2_eq mc hf h s
    have h2 := (step_time mc ax .rk2 h s).1
    have := ih (stepOf mc ax .rk2 h s)
    simp only [run, List.foldl_cons, stepOf, advance] at this h2 ⊢
    rw [this, h1, h2, List.sum_cons]
    simp only [prim]
    module

/-- C09, RK4, forcing: cubic in time forcing is integrated exactly over any list of
steps. -/
theorem C09_rk4_forcing (a b c d : E)
    (hf : RateIs mc fun t _ => a + t • b + t ^ 2 • c + t ^ 3 • d) (hs : List K)
    (s : Sim K E M) :
    (run mc ax .rk4 hs s).r 0 = s.r 0 + (prim a b c d (s.t + hs.sum) - prim a b c d s.t) := by
  induction hs generalizing s with
  | nil => simp [run]
  | cons h hs ih =>
    have h1 := rk4_eq mc hf h s
    have h2 := (step_time mc ax .rk4 h s).1
    have := ih (stepOf mc ax .rk4 h s)
    simp only [run, List.foldl_cons, stepOf, advance] at this h1 h2 ⊢
    rw [this, h1, h2, List.sum_cons]
    simp only [prim]
    module

/-- C09, RK2, linear systems `y' = A y`: one step is the Taylor polynomial of the
exponential of degree 2. -/
theorem C09_rk2_linear (A : E →ₗ[K] E) (hf : RateIs mc fun _ y => A y) (h : K) (s : Sim K E M) :
    (stepOf mc ax .rk2 h s).r 0 =
      s.r 0 + h • A (s.r 0) + (h ^ 2 / 2) • A (A (s.r 0)) := by
  simp only [stepOf]
  rw [rk2_eq mc hf h s]
  simp only [map_add, map_smul]
  module

/-- C09, RK4, linear systems: Taylor polynomial of degree 4. -/
theorem C09_rk4_linear (A : E →ₗ[K] E) (hf : RateIs mc fun _ y => A y) (h : K) (s : Sim K E M) :
    (stepOf mc ax .rk4 h s).r 0 =
      s.r 0 + h • A (s.r 0) + (h ^ 2 / 2) • A (A (s.r 0)) + (h ^ 3 / 6) • A (A (A (s.r 0)))
        + (h ^ 4 / 24) • A (A (A (A (s.r 0)))) := by
  have := rk4_eq mc hf h s
  simp only at this
  simp only [stepOf]
  rw [this]
  simp only [map_add, map_smul]
  module

/-- What Heun's scheme does with forcing `p(t)`: in the step from `t` to `t + h` it
adds the trapezoidal rule with the values at the beginning of this step and at the
beginning of the previous one (it never evaluates at the end of the step). -/
theorem C09_heun_lags (p : K → E) (hf : RateIs mc fun t _ => p t) (h : K) (s : Sim K E M)
    (tprev : K) (hprev : s.rd 0 = p tprev) :
    (stepOf mc ax .heun h s).r 0 = s.r 0 + (h / 2) • (p tprev + p s.t) := by
  simp only [stepOf]
  rw [(heun_eq mc hf h s).1, hprev]
  module

/-- Hence C09 fails for Heun: with forcing `p(t) = t`, after start-up with equal
steps `h`, the error of each step is `-h²` (a first order error). -/
theorem C09_heun_first_order (e : E) (hf : RateIs mc fun t _ => t • e) (h : K) (s : Sim K E M)
    (hprev : s.rd 0 = (s.t - h) • e) :
    (stepOf mc ax .heun h s).r 0 =
      s.r 0 + (prim 0 e 0 0 (s.t + h) - prim 0 e 0 0 s.t) - h ^ 2 • e := by
  rw [C09_heun_lags mc ax (fun t => t • e) hf h s (s.t - h) hprev]
  simp only [prim]
  module

/-- What the Adams-Bashforth schemes do to points and lines, whose states are subtracted as they should
(for rods and bodies see `C08_rigid_ab_false`), after start-up (`n = order`): the shift of the
stored derivatives copies the latest one into all the older ones, so only the
derivatives at the two latest instants are used, with weights `1 + w` and `-w`. -/
theorem C09_ab_two_point (f : K → E → E) (hf : RateIs mc f) (order : ℕ)
    (ho : order = 2 ∨ order = 3 ∨ order = 4) (hsub : ∀ a b, ax.ssub a b = a - b) (h : K)
    (s : Sim K E M) (hn : s.n = order) :
    (stepOf mc ax (.ab order) h s).r 0 = s.r 0 +
      (h * (1 + if order = 2 then 11 / 12 else if order = 3 then 31 / 24 else 1181 / 720)) •
          f s.t (s.r 0) -
      (h * (if order = 2 then 11 / 12 else if order = 3 then 31 / 24 else 1181 / 720)) • s.rd 0 := by
  simp only [stepOf]
  rw [(ab_eq mc ax hf h s order).1, hn]
  rcases ho with rfl | rfl | rfl
  · simp [abFormula, hsub]; module
  · simp [abFormula, hsub]; module
  · simp [abFormula, hsub]; module

/-- Hence C09 fails for `ab2`, `ab3`, `ab4`: with forcing `p(t) = t` and equal steps
`h`, each step after start-up has the error `(w - 1/2) h²`, with
`w = 11/12, 31/24, 1181/720`, so they are first order schemes. -/
theorem C09_ab_first_order (e : E) (hf : RateIs mc fun t _ => t • e) (order : ℕ)
    (ho : order = 2 ∨ order = 3 ∨ order = 4) (hsub : ∀ a b, ax.ssub a b = a - b) (h : K)
    (s : Sim K E M) (hn : s.n = order)
    (hprev : s.rd 0 = (s.t - h) • e) :
    (stepOf mc ax (.ab order) h s).r 0 =
      s.r 0 + (prim 0 e 0 0 (s.t + h) - prim 0 e 0 0 s.t) +
      (((if order = 2 then 11 / 12 else if order = 3 then 31 / 24 else 1181 / 720) - 1 / 2)
        * h ^ 2) • e := by
  rw [C09_ab_two_point mc ax _ hf order ho hsub h s hn, hprev]
  simp only [prim]
  rcases ho with rfl | rfl | rfl
  · simp; module
  · simp; module
  · simp; module

/-- non-vacuity of C09: RK4 integrates `y' = t^3` from 0 to 1 and 2 exactly -/
example (ax : Aux ℚ ℚ) :
    (run (⟨fun t _ _ _ => t, fun m => (m ^ 3, m), id⟩ : Machine ℚ ℚ ℚ) ax .rk4 [1, 1]
      ⟨0, 0, fun _ => 0, fun _ => 0, 0, 0⟩).r 0 = 4 := by
  rw [C09_rk4_forcing _ ax 0 0 0 1 (by intro t tl e m; simp)]
  norm_num [prim]

/-- the hypotheses of `C09_ab_first_order` are reached: two AB2 steps from rest with
`p(t) = t`, `h = 1` -/
example (ax : Aux ℚ ℚ) :
    let s := run (⟨fun t _ _ _ => t, fun m => (m, m), id⟩ : Machine ℚ ℚ ℚ) ax (.ab 2) [1, 1]
      ⟨0, 0, fun _ => 0, fun _ => 0, 0, 0⟩
    s.n = 2 ∧ s.rd 0 = s.t - 1 := by
  simp [run, stepOf, ab, upd, clc, setR, setRd, shift, addT, fin, Function.update_apply]

end order

end MD.Time
