import Verif.Model.Time

/-!
# Model of the stationary solver of the initial condition

`StationaryScheme` (source/Time.cpp), `MakeStationary` (source/State.cpp) and
`MoorDyn::icStationary` (source/MoorDyn2.cpp), on top of the objects and integrators of
`Verif.Model.Time`.
-/

namespace MD.Time

variable {K E M ε : Type} [Field K] [LinearOrder K] [AddCommGroup E] [Module K E]

/-- `StationaryScheme`, source/Time.hpp:783-843: the integrator, `_error` and `_booster`. -/
structure Stat (K E M : Type) where
  sim : Sim K E M
  err : K
  boost : K

/-- The beginning of `StationaryScheme::Step`, source/Time.cpp:179-182 (and 193-195): the
derivatives, and what `MakeStationary` makes of them.  `mk`: error and rates for a time
step and derivatives. -/
def statEval (mc : Machine K E M) (mk : K → E → K × E) (dt : K) (s : Sim K E M) :
    K × Sim K E M :=
  let s := clc mc 0 (upd mc 0 0 s)
  ((mk dt (s.rd 0)).1, setRd 0 (mk dt (s.rd 0)).2 s)

/-- The limits of the booster, source/Time.cpp:160-170 and 198-201. -/
def clampBoost (b : K) : K := if b > 50 then 50 else if b < 1 / 10 then 1 / 10 else b

/-- `StationaryScheme::Step`, source/Time.cpp:176-223.  `lims v`: the values of
`cfl2dt(cfl, v)` of all objects (lines 206-217). -/
def statStep (mc : Machine K E M) (mk : K → E → K × E) (lims : K → List K) (dt : K)
    (x : Stat K E M) : Stat K E M :=
  let es := statEval mc mk dt x.sim
  let esb : (K × Sim K E M) × K :=
    if x.err ≠ 0 then
      if x.err ≥ es.1 then (es, x.boost * (101 / 100))
      else
        (statEval mc mk dt (setR 0 (mix (es.2.r 0) (es.2.r 1) (1 / 2 : K)) es.2),
         x.boost / (101 / 100))
    else (es, x.boost)
  let e := esb.1.1
  let s := esb.1.2
  let b := clampBoost esb.2
  let newDt := (lims (1 / 2 * dt * e)).foldl min (b * dt)
  let s := setR 1 (s.r 0) s
  let s := setR 0 (s.r 0 + newDt • s.rd 0) s
  let s := addT dt s
  let s := upd mc dt 0 s
  ⟨fin dt s, e, b⟩

/-! ## `MakeStationary` -/

/-- Points and nodes of lines, source/State.cpp:402-418 and 430-440: velocities of all of
them `V`, accelerations `V`; `N`: the sum of the moduli. -/
def mkPL {V : Type} [AddCommGroup V] [Module K V] (N : V → K) (dt : K) (d : V × V) :
    K × (V × V) := (N d.2, ((1 / 2 * dt) • d.2, 0))

/-- Rods and bodies, source/State.cpp:420-428: rates `P × Q` of place and quaternion,
accelerations `P × W` (linear, angular); `N`: the sum of the moduli of the linear ones;
`conv`: `XYZQuat::fromVec6`, source/Misc.hpp:294-297, which leaves the place alone and
takes the rest for angles. -/
def mkRB {P Q W : Type} [AddCommGroup P] [Module K P] [AddCommGroup Q] [AddCommGroup W]
    [Module K W] (N : P → K) (conv : W → Q) (dt : K) (d : (P × Q) × (P × W)) :
    K × ((P × Q) × (P × W)) :=
  (N d.2.1, (((1 / 2 * dt) • d.2.1, conv ((1 / 2 * dt) • d.2.2)), 0))

/-- `DMoorDynStateDt::MakeStationary`, source/State.cpp:842-855: the sum of the errors. -/
def mkAll {E₁ E₂ : Type} (f : K → E₁ → K × E₁) (g : K → E₂ → K × E₂) (dt : K) (d : E₁ × E₂) :
    K × (E₁ × E₂) := ((f dt d.1).1 + (g dt d.2).1, ((f dt d.1).2, (g dt d.2).2))

/-! ## `icStationary` -/

/-- The variables of `icStationary`, source/MoorDyn2.cpp:334-339. -/
structure Run (K E M : Type) where
  x : Stat K E M
  t : K
  prev : K
  err : K
  err0 : K

/-- Options. -/
structure Opts (K : Type) where
  /-- `ICdt`, `ICTmax`, `ICthresh`, `dtM0` -/
  dtIC : K
  tmax : K
  thr : K
  dtM : K
  /-- `numeric_limits<real>::min()` and `max()` -/
  tiny : K
  big : K

/-- One interval, source/MoorDyn2.cpp:361-381. `step`: `Step` or an exception. `none`: the
fuel is over. -/
def inner (step : K → Stat K E M → Except ε (Stat K E M)) (o : Opts K) :
    ℕ → K → Run K E M → Option (Except ε (Run K E M))
  | fuel, target, u =>
    if target > 0 then
      match fuel with
      | 0 => none
      | f + 1 =>
        let dt := if o.dtM < target then o.dtM else target
        match step dt u.x with
        | .error e => some (.error e)
        | .ok y =>
          inner step o f (target - dt)
            { u with x := y, err := y.err, err0 := if u.t = 0 then y.err else u.err0, t := y.sim.t }
    else some (.ok u)

/-- The test of source/MoorDyn2.cpp:386-389; a division by zero is infinite or not a number
and never less than the threshold. -/
def converged (o : Opts K) (u : Run K E M) : Bool :=
  u.err = 0 ∨ (u.err0 ≠ 0 ∧ u.err / u.err0 < o.thr) ∨
    (u.prev ≠ 0 ∧ |u.prev - u.err| / u.prev < o.thr)

/-- `TimeScheme::Next`, source/Time.hpp:232-238. -/
def statNext (mc : Machine K E M) (x : Stat K E M) : Stat K E M :=
  { x with sim := { x.sim with tl := 0, m := mc.next x.sim.m } }

/-- The loop of `icStationary`, source/MoorDyn2.cpp:356-395 (the best score, which is only
reported, is left out). -/
def outer (mc : Machine K E M) (step : K → Stat K E M → Except ε (Stat K E M)) (o : Opts K)
    (fuelIn : ℕ) : ℕ → Run K E M → Option (Except ε (Run K E M))
  | fuel, u =>
    if o.tmax - u.t > o.tiny then
      match fuel with
      | 0 => none
      | f + 1 =>
        match inner step o fuelIn o.dtIC { u with x := statNext mc u.x } with
        | none => none
        | some (.error e) => some (.error e)
        | some (.ok u) =>
          if converged o u then some (.ok u)
          else outer mc step o fuelIn f { u with prev := u.err }
    else some (.ok u)

/-- `icStationary`, source/MoorDyn2.cpp:331-403: from the integrator after `Init`. -/
def icStationary (mc : Machine K E M) (step : K → Stat K E M → Except ε (Stat K E M))
    (o : Opts K) (fuelIn fuel : ℕ) (s : Sim K E M) : Option (Except ε (Run K E M)) :=
  outer mc step o fuelIn fuel
    { x := ⟨{ s with t := 0 }, 0, 1⟩, t := 0, prev := o.big, err := o.big, err0 := o.big }

/-- `Step`, with the exceptions of the objects. -/
def statStepE (mc : Machine K E M) (mk : K → E → K × E) (lims : K → List K)
    (fails : K → Stat K E M → Option ε) (dt : K) (x : Stat K E M) : Except ε (Stat K E M) :=
  match fails dt x with
  | some e => .error e
  | none => .ok (statStep mc mk lims dt x)

end MD.Time
