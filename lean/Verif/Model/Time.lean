import Mathlib.Algebra.Module.Basic
import Mathlib.Algebra.Order.Field.Basic
import Mathlib.Logic.Function.Basic

/-!
# Model of the time integrators (`source/Time.cpp`, `source/Time.hpp`) and of the
time loop of `MoorDyn::Step` (`source/MoorDyn2.cpp`)

Numbers are in a field `K` (exact arithmetic instead of `double`).  The state of
all the objects is one vector `E` over `K`: `MoorDynState` and `DMoorDynStateDt`
add, subtract and scale component by component (source/State.cpp:83-150, 288-400,
622-931; quaternions too, source/Misc.cpp:173-198), so both live in the same
product of copies of `K`.  The exception is the difference of two states, which is a sum
for rods and bodies (source/State.cpp:113-121): it is an operation `ssub` of its own.  That
the lists of states in the code are this vector space is proved in `Verif.Props.State`.

The objects themselves (lines, points, rods, bodies, waves) are a black box
`Machine` with a memory `M`.
-/

namespace MD.Time

/-- The objects, as the integrators see them. -/
structure Machine (K E M : Type) where
  /-- `TimeSchemeBase::Update(t_local, substep)`, source/Time.cpp:39-89: sends the
  time `t`, the local time `t_local` (already added to `this->t_local`, line 44) and
  the state `r[substep]` to the objects. -/
  update : (t tloc : K) → E → M → M
  /-- `TimeSchemeBase::CalcStateDeriv`, source/Time.cpp:91-150: the derivatives
  computed by the objects, which may change their memory. -/
  eval : M → E × M
  /-- the object part of `TimeScheme::Next`, source/Time.hpp:232-238. -/
  next : M → M

/-- The integrator with the objects: `t`, `t_local`, `r[]`, `rd[]`
(source/Time.hpp:280-300, 760-790), `n_steps` of Adams-Bashforth schemes
(source/Time.hpp:1110), and the memory of the objects. -/
structure Sim (K E M : Type) where
  t : K
  tl : K
  r : ℕ → E
  rd : ℕ → E
  n : ℕ
  m : M

/-- What a scheme uses besides the linear operations on states. -/
structure Aux (K E : Type) where
  /-- `ImplicitSchemeBase::Relax`, source/Time.cpp:503-511: arguments `_iters`
  and `iter`.  It contains a `tanh`; nothing is assumed about it. -/
  relax : ℕ → ℕ → K
  /-- `AndersonSchemeBase::converged`, source/Time.hpp:1286-1290, on the residuals
  of the first (`_g0`, source/Time.cpp:552-554) and of the last `qr` call of the step: of each one
  `rd[1]` and the evaluated `rd[0]`. -/
  conv : E × E → E × E → Bool
  /-- `DMoorDynStateDt::Newmark`, source/State.cpp:442-500, arguments
  `gamma beta rd0 rd1 dt`. -/
  newmark : K → K → E → E → K → E
  /-- `DMoorDynStateDt::Wilson`, source/State.cpp:502-562, arguments
  `rd0 rd1 tau dt`. -/
  wilson : E → E → K → K → E
  /-- Local time stepping, source/Time.cpp:98-99 and similar: the stored
  derivative, given the new one and the old one (`_calc_mask` selects). -/
  sel : E → E → E
  /-- `MoorDynState::operator-`, source/State.cpp:113-177 and 674-700: of states, not of
  derivatives. -/
  ssub : E → E → E

/-- The time schemes that `create_time_scheme` can build
(source/Time.cpp:805-888). -/
inductive Scheme (K : Type)
  | euler
  | leuler
  | heun
  | rk2
  | rk4
  | ab (order : ℕ)
  | impEuler (iters : ℕ) (factor : K)
  | anderson (iters : ℕ) (factor : K)
  | newmark (iters : ℕ) (gamma beta : K)
  | wilson (iters : ℕ) (theta : K)

section
variable {K E M : Type} [Field K] [AddCommGroup E] [Module K E]
variable (mc : Machine K E M) (ax : Aux K E)

/-- `Update(t_local, substep)`, source/Time.cpp:39-89 (line 44 adds `this->t_local`). -/
def upd (dtl : K) (k : ℕ) (s : Sim K E M) : Sim K E M :=
  { s with m := mc.update s.t (s.tl + dtl) (s.r k) s.m }

/-- `CalcStateDeriv(substep)` with every object evaluated, source/Time.cpp:91-150. -/
def clc (k : ℕ) (s : Sim K E M) : Sim K E M :=
  { s with rd := Function.update s.rd k (mc.eval s.m).1, m := (mc.eval s.m).2 }

/-- `CalcStateDeriv(substep)` where some objects are masked, source/Time.cpp:91-150. -/
def clcSel (k : ℕ) (s : Sim K E M) : Sim K E M :=
  { s with rd := Function.update s.rd k (ax.sel (mc.eval s.m).1 (s.rd k)), m := (mc.eval s.m).2 }

/-- assignment `r[k] = e` -/
def setR (k : ℕ) (e : E) (s : Sim K E M) : Sim K E M := { s with r := Function.update s.r k e }
/-- assignment `rd[k] = e` -/
def setRd (k : ℕ) (e : E) (s : Sim K E M) : Sim K E M := { s with rd := Function.update s.rd k e }
/-- `t += h` -/
def addT (h : K) (s : Sim K E M) : Sim K E M := { s with t := s.t + h }
/-- `TimeSchemeBase::Step`: `t_local += dt`, source/Time.hpp:254. -/
def fin (dt : K) (s : Sim K E M) : Sim K E M := { s with tl := s.tl + dt }

/-- `Mix`, source/State.cpp:564-596: `a * (1 - f) + b * f`. -/
def mix (a b : E) (f : K) : E := (1 - f) • a + f • b

/-- `EulerScheme::Step`, source/Time.cpp:231-240. -/
def euler (dt : K) (s : Sim K E M) : Sim K E M :=
  let s := upd mc 0 0 s
  let s := clc mc 0 s
  let s := setR 0 (s.r 0 + dt • s.rd 0) s
  let s := addT dt s
  let s := upd mc dt 0 s
  fin dt s

/-- `LocalEulerScheme::Step`, source/Time.cpp:336-346 (the update of the mask,
`SetCalcMask`, is modelled in `Verif.Model.Motion`; here the mask is `ax.sel`). -/
def leuler (dt : K) (s : Sim K E M) : Sim K E M :=
  let s := upd mc 0 0 s
  let s := clcSel mc ax 0 s
  let s := setR 0 (s.r 0 + dt • s.rd 0) s
  let s := addT dt s
  let s := upd mc dt 0 s
  fin dt s

/-- `HeunScheme::Step`, source/Time.cpp:354-369. -/
def heun (dt : K) (s : Sim K E M) : Sim K E M :=
  let s := setR 0 (s.r 0 + dt • s.rd 0) s
  let s := setRd 1 (s.rd 0) s
  let s := upd mc 0 0 s
  let s := clc mc 0 s
  let s := setR 0 (s.r 0 + (1 / 2 * dt) • (s.rd 0 - s.rd 1)) s
  let s := addT dt s
  let s := upd mc dt 0 s
  fin dt s

/-- `RK2Scheme::Step`, source/Time.cpp:377-393. -/
def rk2 (dt : K) (s : Sim K E M) : Sim K E M :=
  let s := upd mc 0 0 s
  let s := clc mc 0 s
  let s := addT (1 / 2 * dt) s
  let s := setR 1 (s.r 0 + (1 / 2 * dt) • s.rd 0) s
  let s := upd mc (1 / 2 * dt) 1 s
  let s := clc mc 1 s
  let s := setR 0 (s.r 0 + dt • s.rd 1) s
  let s := addT (1 / 2 * dt) s
  let s := upd mc dt 0 s
  fin dt s

/-- `RK4Scheme::Step`, source/Time.cpp:401-431. -/
def rk4 (dt : K) (s : Sim K E M) : Sim K E M :=
  let s := upd mc 0 0 s
  let s := clc mc 0 s
  let s := addT (1 / 2 * dt) s
  let s := setR 1 (s.r 0 + (1 / 2 * dt) • s.rd 0) s
  let s := upd mc (1 / 2 * dt) 1 s
  let s := clc mc 1 s
  let s := setR 1 (s.r 0 + (1 / 2 * dt) • s.rd 1) s
  let s := upd mc (1 / 2 * dt) 1 s
  let s := clc mc 2 s
  let s := addT (1 / 2 * dt) s
  let s := setR 2 (s.r 0 + dt • s.rd 2) s
  let s := upd mc dt 2 s
  let s := clc mc 3 s
  let s := setR 0 (s.r 0 + (dt / 6) • (s.rd 0 + s.rd 3) + (dt / 3) • (s.rd 1 + s.rd 2)) s
  let s := upd mc dt 0 s
  fin dt s

/-- `ABScheme::shift()`, source/Time.hpp:1147-1152, with 5 derivatives: for
`i = 0..3` in this order, `rd[i+1] = rd[i]` (source/Time.hpp:1115-1145). -/
def shift (s : Sim K E M) : Sim K E M :=
  let s := setRd 1 (s.rd 0) s
  let s := setRd 2 (s.rd 1) s
  let s := setRd 3 (s.rd 2) s
  setRd 4 (s.rd 3) s

/-- the `switch (n_steps)` of `ABScheme::Step`, source/Time.cpp:463-483; `sub` is the difference of
two states -/
def abFormula (sub : E → E → E) (n : ℕ) (dt : K) (r0 : E) (rd : ℕ → E) : E :=
  match n with
  | 0 => r0 + dt • rd 0
  | 1 => sub (r0 + (dt * (3 / 2)) • rd 0) ((dt * (1 / 2)) • rd 1)
  | 2 => sub (r0 + (dt * 23 / 12) • rd 0) ((dt * 4 / 3) • rd 1) + (dt * 5 / 12) • rd 2
  | 3 => sub (sub (r0 + (dt * 55 / 24) • rd 0) ((dt * 59 / 24) • rd 1) + (dt * 37 / 24) • rd 2)
      ((dt * 3 / 8) • rd 3)
  | _ => sub (sub (r0 + (dt * 1901 / 720) • rd 0) ((dt * 1387 / 360) • rd 1)
      + (dt * 109 / 30) • rd 2) ((dt * 637 / 360) • rd 3) + (dt * 251 / 720) • rd 4

/-- `ABScheme<order, false>::Step`, source/Time.cpp:453-490. -/
def ab (order : ℕ) (dt : K) (s : Sim K E M) : Sim K E M :=
  let s := upd mc 0 0 s
  let s := shift s
  let s := clc mc 0 s
  let s := setR 0 (abFormula ax.ssub s.n dt (s.r 0) s.rd) s
  let s := { s with n := min (s.n + 1) order }
  let s := addT dt s
  let s := upd mc dt 0 s
  fin dt s

/-- One iteration of the loop of `ImplicitEulerScheme::Step`, source/Time.cpp:650-661. -/
def impBody (iters : ℕ) (fac dt : K) (i : ℕ) (s : Sim K E M) : Sim K E M :=
  let s := setR 1 (s.r 0 + (fac * dt) • s.rd 0) s
  let s := upd mc (fac * dt) 1 s
  let s := clc mc 0 s
  if i < iters - 1 then
    let s := setRd 0 (mix (s.rd 0) (s.rd 1) (ax.relax iters i)) s
    setRd 1 (s.rd 0) s
  else s

/-- `ImplicitEulerScheme::Step`, source/Time.cpp:646-669. -/
def impEuler (iters : ℕ) (fac dt : K) (s : Sim K E M) : Sim K E M :=
  let s := addT (fac * dt) s
  let s := setRd 1 (s.rd 0) s
  let s := (List.range iters).foldl (fun s i => impBody mc ax iters fac dt i s) s
  let s := setR 0 (s.r 0 + dt • s.rd 0) s
  let s := addT ((1 - fac) * dt) s
  let s := upd mc dt 0 s
  fin dt s

/-- The residual of the first iteration is kept, source/Time.cpp:552-554. -/
def firstRes (i : ℕ) (g g0 : E × E) : E × E := if i = 0 then g else g0

/-- The loop of `AndersonEulerScheme::Step`, source/Time.cpp:688-700, with `k`
iterations left.  `qr` (source/Time.cpp:531-632) always returns at its first or
second `return`, after `rd[0].Mix(rd[1], Relax(i))`.  `g0` stands for the residual of the first
iteration. -/
def andLoop (iters : ℕ) (fac dt : K) : ℕ → E × E → Sim K E M → Sim K E M
  | 0, _, s => s
  | k + 1, g0, s =>
    let i := iters - (k + 1)
    let s := setR 1 (s.r 0 + (fac * dt) • s.rd 0) s
    let s := upd mc (fac * dt) 1 s
    let s := clc mc 0 s
    if i < iters - 1 then
      let g0 := firstRes i (s.rd 1, s.rd 0) g0
      let c := ax.conv g0 (s.rd 1, s.rd 0)
      let s := setRd 0 (mix (s.rd 0) (s.rd 1) (ax.relax iters i)) s
      let s := setRd 1 (s.rd 0) s
      if c then s else andLoop iters fac dt k g0 s
    else s

/-- `AndersonEulerScheme::Step`, source/Time.cpp:684-707. -/
def anderson (iters : ℕ) (fac dt : K) (s : Sim K E M) : Sim K E M :=
  let s := addT (fac * dt) s
  let s := andLoop mc ax iters fac dt iters (0, 0) s
  let s := setR 0 (s.r 0 + dt • s.rd 0) s
  let s := addT ((1 - fac) * dt) s
  let s := upd mc dt 0 s
  fin dt s

/-- One iteration of the loop of `ImplicitNewmarkScheme::Step`, source/Time.cpp:735-749. -/
def newmarkBody (iters : ℕ) (gamma beta dt : K) (i : ℕ) (s : Sim K E M) : Sim K E M :=
  let s := setR 1 (s.r 0 + dt • ax.newmark gamma beta (s.rd 0) (s.rd 1) dt) s
  let s := upd mc dt 1 s
  let s := clc mc 1 s
  if i < iters - 1 then
    let s := setRd 1 (mix (s.rd 1) (s.rd 2) (ax.relax iters i)) s
    setRd 2 (s.rd 1) s
  else s

/-- `ImplicitNewmarkScheme::Step`, source/Time.cpp:726-757. -/
def newmark (iters : ℕ) (gamma beta dt : K) (s : Sim K E M) : Sim K E M :=
  let s := setRd 1 (s.rd 0) s
  let s := addT dt s
  let s := setRd 2 (s.rd 0) s
  let s := (List.range iters).foldl (fun s i => newmarkBody mc ax iters gamma beta dt i s) s
  let s := setR 1 (s.r 0 + dt • ax.newmark gamma beta (s.rd 0) (s.rd 1) dt) s
  let s := setR 0 (s.r 1) s
  let s := setRd 0 (s.rd 1) s
  let s := upd mc dt 0 s
  fin dt s

/-- One iteration of the loop of `ImplicitWilsonScheme::Step`, source/Time.cpp:780-794. -/
def wilsonBody (iters : ℕ) (tdt : K) (i : ℕ) (s : Sim K E M) : Sim K E M :=
  let s := setR 1 (s.r 0 + tdt • ax.wilson (s.rd 0) (s.rd 1) tdt tdt) s
  let s := upd mc tdt 1 s
  let s := clc mc 1 s
  if i < iters - 1 then
    let s := setRd 0 (mix (s.rd 0) (s.rd 1) (ax.relax iters i)) s
    setRd 1 (s.rd 0) s
  else s

/-- `ImplicitWilsonScheme::Step`, source/Time.cpp:774-803. -/
def wilson (iters : ℕ) (theta dt : K) (s : Sim K E M) : Sim K E M :=
  let tdt := theta * dt
  let s := addT tdt s
  let s := setRd 1 (s.rd 0) s
  let s := (List.range iters).foldl (fun s i => wilsonBody mc ax iters tdt i s) s
  let s := addT (-((1 - theta) * dt)) s
  let s := setR 1 (s.r 0 + dt • ax.wilson (s.rd 0) (s.rd 1) dt tdt) s
  let s := setR 0 (s.r 1) s
  let s := setRd 0 (s.rd 1) s
  let s := upd mc dt 0 s
  fin dt s

/-- `TimeScheme::Step` of the selected scheme. -/
def stepOf : Scheme K → K → Sim K E M → Sim K E M
  | .euler => euler mc
  | .leuler => leuler mc ax
  | .heun => heun mc
  | .rk2 => rk2 mc
  | .rk4 => rk4 mc
  | .ab order => ab mc ax order
  | .impEuler iters fac => impEuler mc ax iters fac
  | .anderson iters fac => anderson mc ax iters fac
  | .newmark iters g b => newmark mc ax iters g b
  | .wilson iters th => wilson mc ax iters th

/-- `TimeScheme::Next`, source/Time.hpp:232-238. -/
def next (s : Sim K E M) : Sim K E M := { s with tl := 0, m := mc.next s.m }

end

/-! ## The loop of `MoorDyn::Step` -/

section
variable {K σ ε : Type} [Field K] [LinearOrder K]

/-- The loop `while ((dt_step = t_target) > 0.0)` of `MoorDyn::Step`,
source/MoorDyn2.cpp:696-714.  `step` is `_t_integrator->Step(dt_step)`, which may
throw; the error is returned at once.  The result is `none` if `fuel` iterations
are not enough; otherwise the outcome, the value of `t_target` and the list of
internal steps done, latest first. -/
def subLoop (dtM0 : K) (step : K → σ → Except ε σ) :
    ℕ → K → σ → List K → Option (Except ε σ × List K)
  | fuel, target, s, hs =>
    if target > 0 then
      match fuel with
      | 0 => none
      | f + 1 =>
        let h := if dtM0 < target then dtM0 else target
        match step h s with
        | .error e => some (.error e, hs)
        | .ok s' => subLoop dtM0 step f (target - h) s' (h :: hs)
    else some (.ok s, hs)

/-- The time stepping of `MoorDyn::Step`, source/MoorDyn2.cpp:620-626 and 692-714:
nothing for `dt <= 0`, else `Next` and the loop. -/
def outerStep (dtM0 : K) (nxt : σ → σ) (step : K → σ → Except ε σ) (fuel : ℕ) (dt : K) (s : σ) :
    Option (Except ε σ × List K) :=
  if dt ≤ 0 then some (.ok s, []) else subLoop dtM0 step fuel dt (nxt s) []
end

end MD.Time
