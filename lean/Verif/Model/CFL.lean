import Mathlib.Analysis.Real.Sqrt
import Mathlib.Analysis.SpecialFunctions.Trigonometric.Basic

/-!
# Model of `source/Util/CFL.hpp` and of the choice of the internal time step
-/

namespace MD.CFL

/-- Natural period of a `NatFreqCFL` with stiffness `k` and mass `m`,
source/Util/CFL.hpp:170-177. -/
noncomputable def period (k m : ℝ) : ℝ := 2 * Real.pi / Real.sqrt (k / m)

/-- Objects with a CFL number: a line (`NatFreqCFL`, stiffness and mass of a segment, set in
source/Line.cpp:163-167) or an object that takes it from the attached ones (`SuperCFL`:
points, rods, bodies; source/Util/CFL.hpp:194-268). -/
inductive Obj
  | line (k m : ℝ)
  | super (children : List Obj)

mutual
/-- `cfl2dt(cfl)`, source/Util/CFL.hpp:127 and 208-213; `big` is
`std::numeric_limits<real>::max()`, the result of the base class (line 69). -/
noncomputable def Obj.cfl2dt (big cfl : ℝ) : Obj → ℝ
  | .line k m => cfl * period k m
  | .super cs => minChildren big cfl big cs
/-- the loop of source/Util/CFL.hpp:210-211 -/
noncomputable def minChildren (big cfl acc : ℝ) : List Obj → ℝ
  | [] => acc
  | c :: cs => minChildren big cfl (min acc (c.cfl2dt big cfl)) cs
end

mutual
/-- `dt2cfl(dt)`, source/Util/CFL.hpp:133 and 219-224. -/
noncomputable def Obj.dt2cfl (dt : ℝ) : Obj → ℝ
  | .line k m => dt / period k m
  | .super cs => maxChildren dt 0 cs
/-- the loop of source/Util/CFL.hpp:221-222 -/
noncomputable def maxChildren (dt acc : ℝ) : List Obj → ℝ
  | [] => acc
  | c :: cs => maxChildren dt (max acc (c.dt2cfl dt)) cs
end

/-- Loop over `LineList`, `PointList`, `RodList` and `BodyList` (`objs` is their
concatenation): source/MoorDyn2.cpp:506-513, source/MoorDyn2.hpp:353-360. -/
noncomputable def minDt (big cfl dt : ℝ) (objs : List Obj) : ℝ :=
  objs.foldl (fun d o => min d (o.cfl2dt big cfl)) dt

/-- source/MoorDyn2.cpp:515-523, source/MoorDyn2.hpp:330-338. -/
noncomputable def maxCfl (dt : ℝ) (objs : List Obj) : ℝ :=
  objs.foldl (fun c o => max c (o.dt2cfl dt)) 0

/-- The time step and CFL number chosen in `MoorDyn::Init`, source/MoorDyn2.cpp:502-523, from
the requested ones (`dt = big` if none was requested, source/MoorDyn2.cpp:89). -/
noncomputable def initDt (big dt cfl : ℝ) (objs : List Obj) : ℝ × ℝ :=
  let cfl := if dt < 0.9 * big then big else cfl
  let dt := minDt big cfl dt objs
  (dt, maxCfl dt objs)

/-- `MoorDyn::SetDt`, source/MoorDyn2.hpp:328-339: resulting (dt, cfl). -/
noncomputable def setDt (dt : ℝ) (objs : List Obj) : ℝ × ℝ := (dt, maxCfl dt objs)

/-- `MoorDyn::SetCFL`, source/MoorDyn2.hpp:350-361: resulting (dt, cfl). -/
noncomputable def setCfl (big cfl : ℝ) (objs : List Obj) : ℝ × ℝ := (minDt big cfl big objs, cfl)

end MD.CFL
