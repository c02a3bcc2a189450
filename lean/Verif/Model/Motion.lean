import Verif.Model.Time

/-!
# Model of the objects moved by the local clock of the integrator

* coupled points (`source/Point.cpp`),
* lines with a changing unstretched length (`source/Line.hpp`),
* the local time step masks (`source/Time.cpp`).

Everything else in the system is an arbitrary memory `R` ("the rest"), which may
use these objects.
-/

namespace MD.Motion

open MD.Time

section
variable {K E R : Type} [Field K]

/-! ## Coupled points -/

/-- The part of a coupled `Point` that matters here: `r_ves`, `rd_ves`, `r`, `rd`
(source/Point.hpp:120-160).  `log` is not in the code: it records what was observed
at each evaluation of the derivatives, latest first. -/
structure CPoint (V : Type) where
  rVes : V
  rdVes : V
  r : V
  rd : V
  log : List (V × V)

variable {V : Type} [AddCommGroup V] [Module K V]

/-- `Point::initiateStep`, source/Point.cpp:205-221, called with `x` and `xd` from
source/MoorDyn2.cpp:682-688. -/
def CPoint.initiateStep (x xd : V) (p : CPoint V) : CPoint V := { p with rVes := x, rdVes := xd }

/-- `Point::updateFairlead`, source/Point.cpp:223-239. -/
def CPoint.updateFairlead (time : K) (p : CPoint V) : CPoint V :=
  { p with r := p.rVes + time • p.rdVes, rd := p.rdVes }

/-- observation of the point when the derivatives are evaluated (ghost) -/
def CPoint.observe (p : CPoint V) : CPoint V := { p with log := (p.r, p.rd) :: p.log }

/-- A system with one distinguished coupled point.  `Update` calls `updateFairlead`
with the local time for each coupled point (source/Time.cpp:55-59) besides anything
else; `CalcStateDeriv` does not move coupled points (source/Time.cpp:91-150);
`Next` does not touch points (source/Time.hpp:232-238). -/
def pointMachine (update : K → K → E → CPoint V → R → R) (eval : CPoint V → R → E × R)
    (nxt : R → R) : Machine K E (CPoint V × R) where
  update t tl e m := (m.1.updateFairlead tl, update t tl e m.1 m.2)
  eval m := ((eval m.1 m.2).1, (m.1.observe, (eval m.1 m.2).2))
  next m := (m.1, nxt m.2)

/-! ## Unstretched length -/

/-- The part of a `Line` that matters here: `N`, `UnstrLen`, `UnstrLen0`,
`UnstrLend`, `l[]` (source/Line.hpp:120-200). -/
structure LLen (K : Type) where
  N : ℕ
  len : K
  len0 : K
  vel : K
  l : List K

/-- `Line::setUnstretchedLength`, source/Line.hpp:375-382 (the volumes are left out). -/
def LLen.setLen (len : K) (x : LLen K) : LLen K :=
  { x with len := len, l := List.replicate x.N (len / x.N) }

/-- `Line::setUnstretchedLengthVel`, source/Line.hpp:388-391. -/
def LLen.setVel (v : K) (x : LLen K) : LLen K := { x with vel := v }

/-- `Line::updateUnstretchedLength`, source/Line.hpp:401-410. -/
def LLen.update [DecidableEq K] (dt : K) (x : LLen K) : LLen K :=
  if x.vel = 0 then x
  else if dt = 0 then { x with len0 := x.len }
  else x.setLen (x.len0 + dt * x.vel)

/-- A system with one distinguished line.  `Update` calls
`updateUnstretchedLength(t_local)` (source/Time.cpp:60-62), `Next` calls
`updateUnstretchedLength()` (source/Time.hpp:235-237); the derivatives do not change
the lengths (source/Line.cpp:772-1264). -/
def lineMachine [DecidableEq K] (update : K → K → E → LLen K → R → R) (eval : LLen K → R → E × R)
    (nxt : R → R) : Machine K E (LLen K × R) where
  update t tl e m := (m.1.update tl, update t tl e m.1 m.2)
  eval m := ((eval m.1 m.2).1, (m.1, (eval m.1 m.2).2))
  next m := (m.1.update 0, nxt m.2)

end

/-! ## Local time steps -/

section
variable {K : Type} [Field K] [LinearOrder K]

/-- Bookkeeping of one object in `LocalTimeSchemeBase` (source/Time.hpp:920-945):
`_dt0`, `_dt`, `_calc_mask`.  `last` is not in the code: the time at which the
derivative in use was computed. -/
structure Clock (K : Type) where
  dt0 : K
  dt : K
  mask : Bool
  last : K

/-- `ComputeDt` for a line with local time step `dtLine` (source/Time.cpp:298-305);
`t` is the time of the (never evaluated) initial derivative. -/
def Clock.line (dtLine t : K) : Clock K := ⟨999 / 1000 * dtLine, dtLine, true, t⟩

/-- `ComputeDt` for a point, rod or body (source/Time.cpp:306-325). -/
def Clock.other (t : K) : Clock K := ⟨0, 0, true, t⟩

/-- `SetCalcMask` for one object, source/Time.cpp:242-283. -/
def Clock.setMask (h : K) (c : Clock K) : Clock K :=
  let acc := c.dt + h
  if acc ≥ c.dt0 then { c with dt := h, mask := true } else { c with dt := acc, mask := false }

/-- `LocalEulerScheme::Step` (source/Time.cpp:336-346) as seen by the clocks of all
the objects: the mask is set and the masked objects are evaluated (line 98-99 and
similar) at the current time. -/
def localStep (t h : K) (cs : List (Clock K)) : List (Clock K) :=
  cs.map fun c =>
    let c := c.setMask h
    if c.mask then { c with last := t } else c

/-- Successive internal steps from time `t`: the final time and clocks. -/
def localRun (t : K) (hs : List K) (cs : List (Clock K)) : K × List (Clock K) :=
  hs.foldl (fun s h => (s.1 + h, localStep s.1 h s.2)) (t, cs)

end

end MD.Motion
