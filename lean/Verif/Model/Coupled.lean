import Verif.Model.Body

/-!
# Model of the motion imposed on coupled bodies and rods

What `MoorDyn_Init` and `MoorDyn_Step` hand to coupled bodies and rods (`initiateStep`), what these
use at the instants of the integration (`updateFairlead`), and the equations of the rods which are
held by a pin (`Rod::getStateDeriv`, source/Rod.cpp).

Positions and velocities are vectors of 6 components, or of 3 for what is pinned; the rotation made
of the three angles is the subject of the model of rotations. Not modelled: rounding.
-/

namespace MD.Coupled

variable {K E : Type} [Field K] [LinearOrder K] [AddCommGroup E] [Module K E]

/-- `r_ves`, `rd_ves`, `rdd_ves` of a coupled body (source/Body.hpp:133-138) or rod
(source/Rod.hpp:203-208) -/
structure Ves (E : Type) where
  r : E
  rd : E
  rdd : E

/-- `MoorDyn::Init`: `initiateStep(r, rd, 0)` (and `updateFairlead(0)`), source/MoorDyn2.cpp:430-475,
source/Body.cpp:168-176 -/
def start (x xd : E) : Ves E := ⟨x, xd, 0⟩

/-- The part of `MoorDyn::Step` before the integration, source/MoorDyn2.cpp:621-627 (nothing happens
for `dt <= 0`) and 639-686: `rdd = (rd - getUnfreeVel()) / dt`, and `initiateStep`,
source/Body.cpp:394-409 and source/Rod.cpp:459-480 -/
def call (dt : K) (x xd : E) (c : Ves E) : Ves E :=
  if dt ≤ 0 then c else ⟨x, xd, (1 / dt) • (xd - c.rd)⟩

/-- A sequence of calls of `MoorDyn_Step`: `dt`, `x`, `xd` -/
def calls : List (K × E × E) → Ves E → Ves E
  | [], c => c
  | a :: rest, c => calls rest (call a.1 a.2.1 a.2.2 c)

/-- `updateFairlead(t)`, source/Body.cpp:424-452, source/Rod.cpp:484-509: position, velocity and
acceleration at the time `t` since the beginning of the step -/
def kinematics (t : K) (c : Ves E) : E × E × E := (c.r + t • c.rd, c.rd, c.rdd)

end MD.Coupled

namespace MD.Bodies

open Matrix MD.Mat MD.Rot MD.Mooring MD.Rods

/-- source/Rod.cpp:667-684 `getStateDeriv` of a rod coupled by a pin: angular acceleration, given the
acceleration `a` of the pin, which `updateFairlead` stores before each evaluation
(source/Rod.cpp:500) -/
def coupledPinnedRodAcc (R : Rod) (e : Env) (a al : V) : Prop :=
  ∃ F Mo M6, getNetForceAndMass R e (Rods.r R 0) 0 = some (F, Mo, M6) ∧
    M6.toBlocks₂₂ *ᵥ al = Mo - M6.toBlocks₂₁ *ᵥ a

end MD.Bodies
