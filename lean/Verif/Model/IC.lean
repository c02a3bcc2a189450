import Mathlib.Algebra.Order.Field.Basic
import Mathlib.Data.List.Basic

/-!
# Model of the generation of the initial conditions

`MoorDyn::icLegacy`, and what `MoorDyn::Init` does around it (source/MoorDyn2.cpp). The
integration of one interval (the inner loop of lines 228-247, that of `MoorDyn::Step`, see
C06) is a parameter which gives the next state or an error; it advances the time by exactly
the interval.
-/

namespace MD.IC

variable {K σ ε : Type} [Field K] [LinearOrder K]

/-! ## Drag coefficients -/

/-- The drag coefficients of all objects: `Cdn`, `Cdt` of lines, `pointCdA`, `Cdn`, `Cdt`,
`CdEnd` of rods, the six `bodyCdA` of bodies. -/
structure Coefs (K : Type) where
  lines : List (K × K)
  points : List K
  rods : List (K × K × K)
  bodies : List (List K)

/-- `scaleDrag` of all objects: source/Line.hpp:770-774, source/Point.hpp:318,
source/Rod.hpp:422-427, source/Body.hpp:356; the loops of source/MoorDyn2.cpp:199-206 and
316-327. -/
def Coefs.scale (f : K) (c : Coefs K) : Coefs K where
  lines := c.lines.map fun x => (x.1 * f, x.2 * f)
  points := c.points.map (· * f)
  rods := c.rods.map fun x => (x.1 * f, x.2.1 * f, x.2.2 * f)
  bodies := c.bodies.map fun b => b.map (· * f)

/-! ## Convergence of the tensions -/

/-- A relative error in floating point: a number, infinite, or not a number. -/
inductive RelErr (K : Type)
  | fin (e : K)
  | inf
  | nan

/-- `abs(FairTens[lf] / FairTensLast[lf][pt] - 1.0)`, source/MoorDyn2.cpp:269-270. Division by
zero gives an infinity, or NaN for `0 / 0`. -/
def relErr (now last : K) : RelErr K :=
  if last = 0 then (if now = 0 then .nan else .inf) else .fin |now / last - 1|

/-- `if (error > max_error) max_error = error`, source/MoorDyn2.cpp:271-274; comparisons with
NaN are false. -/
def maxErr (m e : RelErr K) : RelErr K :=
  match e, m with
  | .nan, m => m
  | .inf, _ => .inf
  | .fin e, .fin m => if e > m then .fin e else .fin m
  | .fin _, m => m

/-- `max_error > ICthresh`, source/MoorDyn2.cpp:283. -/
def exceeds (m : RelErr K) (thr : K) : Bool :=
  match m with
  | .fin e => decide (e > thr)
  | .inf => true
  | .nan => false

/-- `FairTens[lf]` and `FairTensLast[lf]`. -/
structure Row (K : Type) where
  now : K
  last : List K

/-- Initial values, source/MoorDyn2.cpp:208-215: 0 and 0, 1, ..., 8. -/
def Row.init : Row K := ⟨0, (List.range 9).map fun i : ℕ => (i : K)⟩

/-- Rolling the tensions and taking the new one, source/MoorDyn2.cpp:249-259: from the last
entry to the second, each takes the one before; the first takes the former tension. -/
def Row.roll (r : Row K) (ten : K) : Row K :=
  ⟨ten, (List.range 9).map fun pt : ℕ => if pt = 0 then r.now else r.last.getD (pt - 1) 0⟩

/-- The double loop of source/MoorDyn2.cpp:267-277. -/
def worst (rows : List (Row K)) : RelErr K :=
  (rows.flatMap fun r => r.last.map (relErr r.now)).foldl maxErr (.fin 0)

/-- Result of the loop of `icLegacy`: a step failed, or it ended with the flag `converged`. -/
inductive Res (K σ ε : Type)
  | failed (e : ε) (s : σ)
  | done (converged : Bool) (t : K) (s : σ) (rows : List (Row K))

/-- The loop of `icLegacy`, source/MoorDyn2.cpp:226-296, from the iteration `iic` on; `h` is
`ICdt` in the loop. `tiny` is `numeric_limits<real>::min()`. `none`: the fuel is over. -/
def loop (adv : σ → Except ε σ) (ten : σ → List K) (h tmax tiny thr : K) :
    ℕ → ℕ → K → σ → List (Row K) → Bool → Option (Res K σ ε)
  | fuel, iic, t, s, rows, conv =>
    if tmax - t > tiny then
      match fuel with
      | 0 => none
      | f + 1 =>
        match (if h > 0 then adv s else .ok s) with
        | .error e => some (.failed e s)
        | .ok s' =>
          let t' := if h > 0 then t + h else t
          let rows' := List.zipWith Row.roll rows (ten s')
          if iic > 9 then
            if exceeds (worst rows') thr then
              loop adv ten h tmax tiny thr f (iic + 1) t' s' rows' false
            else some (.done true t' s' rows')
          else loop adv ten h tmax tiny thr f (iic + 1) t' s' rows' conv
    else some (.done conv t s rows)

/-! ## `Init` -/

/-- The parameters of a system that the initial condition may touch. -/
structure Sys (K σ : Type) where
  coefs : Coefs K
  /-- `ICdt` -/
  icdt : K
  /-- `env->waterKinOptions.waveMode` -/
  waveMode : ℕ
  /-- `env->WtrDpth` -/
  depth : K
  /-- the clock of the integrator -/
  time : K
  /-- the states of the objects -/
  sim : σ

/-- Options and surroundings of `Init`. -/
structure Conf (K σ ε : Type) where
  /-- one interval of the dynamic relaxation with the given drag, of the given length -/
  adv : Coefs K → K → σ → Except ε σ
  /-- tensions at the fairleads -/
  ten : σ → List K
  /-- number of lines -/
  nLines : ℕ
  /-- `_t_integrator->Init()` -/
  start : σ → σ
  /-- the stationary solver, source/MoorDyn2.cpp:331-403, which touches none of the
  parameters -/
  stationary : K → σ → Except ε σ
  /-- `ICDfac` -/
  fac : K
  tmax : K
  tiny : K
  thr : K
  /-- `WaveKinTemp`: the option WaveKin -/
  waveKin : ℕ
  /-- average depth of the bathymetry if there is one, `-getAverageDepth()` -/
  average : Option K
  /-- `waves->setup` with a wave mode and a depth throws? -/
  wavesFail : ℕ → K → Option ε
  /-- opening the main output file and writing the first row -/
  output : Option ε

/-- Outcome of `Init` or of one of its parts. `undefined` is a coefficient that is not a
number (`0 * (1.0 / 0.0)`). -/
inductive Outcome (K σ ε : Type)
  | ok (s : Sys K σ)
  | error (e : ε) (s : Sys K σ)
  | undefined

/-- `icLegacy`, source/MoorDyn2.cpp:188-329. The interval is divided by ten twice (lines 193
and 225) in the member `ICdt`. -/
def icLegacy (c : Conf K σ ε) (fuel : ℕ) (s : Sys K σ) : Option (Outcome K σ ε) :=
  let s := { s with icdt := s.icdt / 10 }
  let s := { s with sim := c.start s.sim }
  let s := { s with coefs := s.coefs.scale c.fac }
  let s := { s with icdt := s.icdt / 10 }
  match loop (c.adv s.coefs s.icdt) c.ten s.icdt c.tmax c.tiny c.thr fuel 1 0 s.sim
      (List.replicate c.nLines Row.init) true with
  | none => none
  | some (.failed e x) => some (.error e { s with sim := x })
  | some (.done _ t x _) =>
    let s := { s with sim := x, time := t }
    let s := { s with time := 0 }
    if c.fac = 0 then some .undefined
    else some (.ok { s with coefs := s.coefs.scale (1 / c.fac) })

/-- The generation of the initial condition, source/MoorDyn2.cpp:529-540. -/
def generate (c : Conf K σ ε) (fuel : ℕ) (dynamic skip : Bool) (s : Sys K σ) :
    Option (Outcome K σ ε) :=
  if skip then some (.ok { s with sim := c.start s.sim })
  else if dynamic then icLegacy c fuel s
  else match c.stationary s.icdt (c.start s.sim) with
    | .error e => some (.error e s)
    | .ok x => some (.ok { s with sim := x })

/-- `MoorDyn::Init` from the generation of the initial condition on,
source/MoorDyn2.cpp:529-603. -/
def init (c : Conf K σ ε) (fuel : ℕ) (dynamic skip : Bool) (s : Sys K σ) :
    Option (Outcome K σ ε) :=
  match generate c fuel dynamic skip s with
  | none => none
  | some .undefined => some .undefined
  | some (.error e s) => some (.error e s)
  | some (.ok s) =>
    let s := { s with time := 0 }
    let s := { s with waveMode := c.waveKin }
    let tmp := s.depth
    let s := match c.average with
      | none => s
      | some d => { s with depth := d }
    match c.wavesFail s.waveMode s.depth with
    | some e => some (.error e s)
    | none =>
      let s := { s with depth := tmp }
      match c.output with
      | some e => some (.error e s)
      | none => some (.ok s)

end MD.IC
