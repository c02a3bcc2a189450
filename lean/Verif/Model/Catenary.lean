/-
Model of the quasi-static catenary solver `Catenary`, source/QSlines.hpp:84-597, and of its use
for the initial shape of a line, source/Line.cpp:403-536.

Simplifications: `double` is ℝ.  Where the code would compute a NaN or an infinity the model
answers `undefined` (zero weight or zero stiffness, a singular Jacobian); the one exception is
the slack initial guess for ends on a vertical, where the infinite parameter is followed by hand.
The printing under `longwinded` is left out.
-/
import Mathlib.Analysis.Real.Sqrt
import Mathlib.Analysis.SpecialFunctions.Log.Basic
import Mathlib.Analysis.SpecialFunctions.Trigonometric.DerivHyp
import Mathlib.Algebra.Order.Floor.Ring
import Mathlib.Algebra.Order.Archimedean.Real.Basic
import Mathlib.Data.Fin.VecNotation

set_option linter.unusedVariables false

namespace MD.Catenary

noncomputable section

/-- The scalar arguments of the solver, source/QSlines.hpp:86-92: horizontal and vertical span, length,
stiffness, weight per length, seabed friction (negative: no seabed) and tolerance. -/
structure Par where
  XF : ℝ
  ZF : ℝ
  L : ℝ
  EA : ℝ
  W : ℝ
  CB : ℝ
  Tol : ℝ

/-- `SQRT1...2`, source/QSlines.hpp:267, 275 (with `VFOvrHF2 = VFOvrHF * VFOvrHF`). -/
def sq (x : ℝ) : ℝ := Real.sqrt (1 + x * x)

/-- `log(x + SQRT1x2)`, source/QSlines.hpp:282-283 and the node formulas. -/
def lg (x : ℝ) : ℝ := Real.log (x + sq x)

/-- Longest line before it doubles back, source/QSlines.hpp:135. -/
def LMax (p : Par) : ℝ :=
  p.XF - p.EA / p.W + Real.sqrt ((p.EA / p.W) * (p.EA / p.W) + 2 * p.ZF * p.EA / p.W)

/-- The too-long test, source/QSlines.hpp:128-146. -/
def tooLong (p : Par) : Prop := 0 < p.W ∧ LMax p ≤ p.L ∧ 0 ≤ p.CB

/-- Initial guess of the tensions, source/QSlines.hpp:229-241 (and again 405-419 with the clamped span).
For a slack line with both ends on a vertical the parameter `Lamda0` is infinite: then the
horizontal tension is zero and `tanh(Lamda0)` is one. -/
def guess (p : Par) : ℝ × ℝ :=
  if p.L ≤ Real.sqrt (p.XF * p.XF + p.ZF * p.ZF) then
    (|0.5 * p.W * p.XF / 0.2|, 0.5 * p.W * (p.ZF / Real.tanh 0.2 + p.L))
  else if p.XF = 0 then (0, 0.5 * p.W * (p.ZF / 1 + p.L))
  else
    let lamda0 := Real.sqrt (3 * ((p.L * p.L - p.ZF * p.ZF) / (p.XF * p.XF) - 1))
    (|0.5 * p.W * p.XF / lamda0|, 0.5 * p.W * (p.ZF / Real.tanh lamda0 + p.L))

/-- source/QSlines.hpp:254-255: the spans are at least the tolerance. -/
def clamp (p : Par) : Par := { p with XF := max p.XF p.Tol, ZF := max p.ZF p.Tol }

/-- The three configurations, source/QSlines.hpp:280, 310, 329 (and 449, 481, 525). -/
inductive Regime
  /-- no part on the seabed -/
  | suspended
  /-- part on the seabed, the anchor is pulled -/
  | dragging
  /-- part on the seabed, friction takes all the tension -/
  | slack
  deriving DecidableEq

/-- Choice of the configuration, source/QSlines.hpp:280, 310. -/
def regime (p : Par) (HF VF : ℝ) : Regime :=
  if p.CB < 0 ∨ p.W < 0 ∨ 0 < VF - p.W * p.L then .suspended
  else if -p.CB * (VF - p.W * p.L) < HF then .dragging
  else .slack

/-- Error functions and Jacobian. -/
structure Resid where
  EXF : ℝ
  EZF : ℝ
  dXFdHF : ℝ
  dXFdVF : ℝ
  dZFdHF : ℝ
  dZFdVF : ℝ

/-- source/QSlines.hpp:282-309. -/
def residSuspended (p : Par) (HF VF : ℝ) : Resid :=
  let v := VF / HF
  let u := (VF - p.W * p.L) / HF
  { EXF := (lg v - lg u) * (HF / p.W) + p.L / p.EA * HF - p.XF
    EZF := (sq v - sq u) * (HF / p.W) + p.L / p.EA * (VF - 0.5 * (p.W * p.L)) - p.ZF
    dXFdHF := (lg v - lg u) / p.W
      - ((v + v * v / sq v) / (v + sq v) - (u + u * u / sq u) / (u + sq u)) / p.W + p.L / p.EA
    dXFdVF := ((1 + v / sq v) / (v + sq v) - (1 + u / sq u) / (u + sq u)) / p.W
    dZFdHF := (sq v - sq u) / p.W - (v * v / sq v - u * u / sq u) / p.W
    dZFdVF := (v / sq v - u / sq u) / p.W + p.L / p.EA }

/-- source/QSlines.hpp:313-328. -/
def residDragging (p : Par) (HF VF : ℝ) : Resid :=
  let v := VF / HF
  let b := p.L - VF / p.W
  { EXF := lg v * (HF / p.W) - 0.5 * (p.CB / p.EA) * p.W * b * b + p.L / p.EA * HF + b - p.XF
    EZF := (sq v - 1) * (HF / p.W) + 0.5 * VF * (VF / (p.W * p.EA)) - p.ZF
    dXFdHF := lg v / p.W - ((v + v * v / sq v) / (v + sq v)) / p.W + p.L / p.EA
    dXFdVF := ((1 + v / sq v) / (v + sq v)) / p.W + p.CB / p.EA * b - 1 / p.W
    dZFdHF := (sq v - 1 - v * v / sq v) / p.W
    dZFdVF := (v / sq v) / p.W + VF / (p.W * p.EA) }

/-- source/QSlines.hpp:332-349. -/
def residSlack (p : Par) (HF VF : ℝ) : Resid :=
  let v := VF / HF
  let b := p.L - VF / p.W
  { EXF := lg v * (HF / p.W)
      - 0.5 * (p.CB / p.EA) * p.W * (b * b - (b - HF / p.W / p.CB) * (b - HF / p.W / p.CB))
      + p.L / p.EA * HF + b - p.XF
    EZF := (sq v - 1) * (HF / p.W) + 0.5 * VF * (VF / (p.W * p.EA)) - p.ZF
    dXFdHF := lg v / p.W - ((v + v * v / sq v) / (v + sq v)) / p.W + p.L / p.EA
      - (b - HF / p.W / p.CB) / p.EA
    dXFdVF := ((1 + v / sq v) / (v + sq v)) / p.W + HF / (p.W * p.EA) - 1 / p.W
    dZFdHF := (sq v - 1 - v * v / sq v) / p.W
    dZFdVF := (v / sq v) / p.W + VF / (p.W * p.EA) }

/-- source/QSlines.hpp:280-350. -/
def resid (p : Par) (HF VF : ℝ) : Resid :=
  match regime p HF VF with
  | .suspended => residSuspended p HF VF
  | .dragging => residDragging p HF VF
  | .slack => residSlack p HF VF

/-- Determinant of the Jacobian, source/QSlines.hpp:354. -/
def DET (R : Resid) : ℝ := R.dXFdHF * R.dZFdVF - R.dXFdVF * R.dZFdHF

/-- `MaxIter = (unsigned int)(1.0 / Tol)`, source/QSlines.hpp:155 (out of range conversions are excluded
in `catenary`). -/
def maxIter (p : Par) : ℕ := ⌊1 / p.Tol⌋₊

/-- Variables carried around the loop: counter, restart flag and fairlead tensions. -/
structure It where
  I : ℕ
  first : Bool
  HF : ℝ
  VF : ℝ

/-- What one pass through the loop does. -/
inductive Pass
  | next (it : It)
  | converged (it : It)
  | failed
  | undefined

/-- Newton increment of the horizontal tension, damped and limited, source/QSlines.hpp:358, 368, 380. -/
def dHF (p : Par) (it : It) : ℝ :=
  let R := resid p it.HF it.VF
  max ((-R.dZFdVF * R.EXF + R.dXFdVF * R.EZF) / DET R * (1 - p.Tol * it.I)) ((p.Tol - 1) * it.HF)

/-- Newton increment of the vertical tension, damped, source/QSlines.hpp:361, 374. -/
def dVF (p : Par) (it : It) : ℝ :=
  let R := resid p it.HF it.VF
  (R.dZFdHF * R.EXF - R.dXFdHF * R.EZF) / DET R * (1 - p.Tol * it.I)

/-- One pass through the Newton loop, source/QSlines.hpp:261-441; `p` has the clamped spans.  The
`++I` of the loop is included in the next counter; on the restart (source/QSlines.hpp:390-426) the
counter is set to zero and then incremented. -/
def pass (p : Par) (it : It) : Pass :=
  if DET (resid p it.HF it.VF) = 0 then .undefined
  else if |dHF p it| ≤ |p.Tol * it.HF| ∧ |dVF p it| ≤ |p.Tol * it.VF| then .converged it
  else if it.I = maxIter p ∧ it.first = true then
    .next { I := 1, first := false, HF := max (guess p).1 p.Tol, VF := (guess p).2 }
  else if it.I = maxIter p ∧ it.first = false then .failed
  else .next { it with I := it.I + 1, HF := it.HF + dHF p it, VF := it.VF + dVF p it }

/-- How the loop ends. -/
inductive Ending
  | converged (it : It)
  | failed
  | undefined
  /-- the loop condition `I <= MaxIter` is false -/
  | ranOut
  /-- not finished within the passes allowed -/
  | unfinished

/-- The loop, source/QSlines.hpp:261, with at most `fuel` passes. -/
def loop (p : Par) : ℕ → It → Ending
  | 0, it => if it.I ≤ maxIter p then .unfinished else .ranOut
  | fuel + 1, it =>
    if it.I ≤ maxIter p then
      match pass p it with
      | .next it' => loop p fuel it'
      | .converged it' => .converged it'
      | .failed => .failed
      | .undefined => .undefined
    else .ranOut

/-- Position and tension of the node at arc length `s`, source/QSlines.hpp:466-479. -/
def nodeSuspended (p : Par) (HF VF s : ℝ) : ℝ × ℝ × ℝ :=
  let VFMinWL := VF - p.W * p.L
  let u := VFMinWL / HF
  let VFMinWLs := VFMinWL + p.W * s
  let w := VFMinWLs / HF
  ((lg w - lg u) * (HF / p.W) + s / p.EA * HF,
   (sq w - sq u) * (HF / p.W) + s / p.EA * (VFMinWL + 0.5 * (p.W * s)),
   Real.sqrt (HF * HF + VFMinWLs * VFMinWLs))

/-- source/QSlines.hpp:500-522. -/
def nodeDragging (p : Par) (HF VF s : ℝ) : ℝ × ℝ × ℝ :=
  let VFMinWL := VF - p.W * p.L
  let VFMinWLs := VFMinWL + p.W * s
  let w := VFMinWLs / HF
  let b := p.L - VF / p.W
  if s ≤ b then
    (s + s / p.EA * (HF + p.CB * VFMinWL + 0.5 * (p.W * s) * p.CB), 0, HF + p.CB * VFMinWLs)
  else
    (lg w * (HF / p.W) + s / p.EA * HF + b - 0.5 * p.CB * VFMinWL * VFMinWL / (p.W * p.EA),
     (-1 + sq w) * (HF / p.W) + s / p.EA * (VFMinWL + 0.5 * (p.W * s))
       + 0.5 * VFMinWL * VFMinWL / (p.W * p.EA),
     Real.sqrt (HF * HF + VFMinWLs * VFMinWLs))

/-- source/QSlines.hpp:544-574. -/
def nodeSlack (p : Par) (HF VF s : ℝ) : ℝ × ℝ × ℝ :=
  let VFMinWL := VF - p.W * p.L
  let VFMinWLs := VFMinWL + p.W * s
  let w := VFMinWLs / HF
  let b := p.L - VF / p.W
  if s ≤ b - HF / p.W / p.CB then (s, 0, 0)
  else if s ≤ b then
    (s - (b - 0.5 * (HF / p.W) / p.CB) * HF / p.EA
       + s / p.EA * (HF + p.CB * VFMinWL + 0.5 * (p.W * s) * p.CB)
       + 0.5 * p.CB * VFMinWL * VFMinWL / (p.W * p.EA),
     0, HF + p.CB * VFMinWLs)
  else
    (lg w * (HF / p.W) + s / p.EA * HF + b - (b - 0.5 * (HF / p.W) / p.CB) * HF / p.EA,
     (-1 + sq w) * (HF / p.W) + s / p.EA * (VFMinWL + 0.5 * (p.W * s))
       + 0.5 * VFMinWL * VFMinWL / (p.W * p.EA),
     Real.sqrt (HF * HF + VFMinWLs * VFMinWLs))

/-- Node position and tension, source/QSlines.hpp:449-576. -/
def node (p : Par) (HF VF s : ℝ) : ℝ × ℝ × ℝ :=
  match regime p HF VF with
  | .suspended => nodeSuspended p HF VF s
  | .dragging => nodeDragging p HF VF s
  | .slack => nodeSlack p HF VF s

/-- Anchor tensions, source/QSlines.hpp:452-453, 486-487, 530-531. -/
def anchor (p : Par) (HF VF : ℝ) : ℝ × ℝ :=
  match regime p HF VF with
  | .suspended => (HF, VF - p.W * p.L)
  | .dragging => (HF + p.CB * (VF - p.W * p.L), 0)
  | .slack => (0, 0)

/-- The results: tensions at both ends, and arc length, position and tension of the nodes. -/
structure Shape where
  HF : ℝ
  VF : ℝ
  HA : ℝ
  VA : ℝ
  nodes : List (ℝ × ℝ × ℝ × ℝ)

/-- Outcome of the solver: return value -1, return value 1, or not a number. -/
inductive Outcome
  | fail
  | ok (sh : Shape)
  | undefined
  | unfinished

/-- Parameters with the lower end taken as the anchor, source/QSlines.hpp:112-120. -/
def upright (p : Par) : Par := if p.ZF < 0 then { p with ZF := -p.ZF } else p

/-- Start of the iteration, source/QSlines.hpp:229-255 (the guess is made before the spans are
clamped). -/
def start (p : Par) : It := { I := 1, first := true, HF := max (guess p).1 p.Tol, VF := (guess p).2 }

/-- The nodes, source/QSlines.hpp:449-576: failure when one is out of the line. -/
def nodes (p : Par) (HF VF : ℝ) (s : List ℝ) : Option (List (ℝ × ℝ × ℝ × ℝ)) :=
  if ∃ x ∈ s, x < 0 ∨ p.L < x then none else some (s.map fun x => (x, node p HF VF x))

/-- Undoing the exchange of the ends, source/QSlines.hpp:583-594. -/
def unreverse (p : Par) (l : List (ℝ × ℝ × ℝ × ℝ)) : List (ℝ × ℝ × ℝ × ℝ) :=
  l.reverse.map fun n => (p.L - n.1, p.XF - n.2.1, n.2.2.1 - p.ZF, n.2.2.2)

open Classical in
/-- `Catenary`, source/QSlines.hpp:84-597, with at most `fuel` passes through the loop.  The conversion
to `unsigned int` of the number of iterations is undefined out of range, and with a tolerance
above one there are no iterations and the following code reads uninitialised variables. -/
def catenary (p : Par) (s : List ℝ) (fuel : ℕ) : Outcome :=
  let q := upright p
  if p.W = 0 ∨ p.EA = 0 ∨ p.Tol ≤ 0 ∨ 2 ^ 32 ≤ 1 / p.Tol then .undefined
  else if tooLong q then .fail
  else
    let c := clamp q
    match loop c fuel (start q) with
    | .converged it =>
      match nodes c it.HF it.VF s with
      | none => .fail
      | some l =>
        .ok { HF := it.HF, VF := it.VF, HA := (anchor c it.HF it.VF).1,
              VA := (anchor c it.HF it.VF).2,
              nodes := if p.ZF < 0 then unreverse c l else l }
    | .failed => .fail
    | .undefined => .undefined
    | .ranOut => .undefined
    | .unfinished => .unfinished

/-- Arguments of the solver for the initial shape of a line between `r0` and `rN`,
source/Line.cpp:465, 476-477, 497-503. -/
def linePar (r0 rN : Fin 3 → ℝ) (L EA W CB : ℝ) : Par :=
  { XF := Real.sqrt ((rN 0 - r0 0) * (rN 0 - r0 0) + (rN 1 - r0 1) * (rN 1 - r0 1))
    ZF := rN 2 - r0 2, L := L, EA := EA, W := W, CB := CB, Tol := 1 / 100000 }

/-- Arc lengths of the nodes, source/Line.cpp:479-486 (the segments are of equal length,
source/Line.cpp:428-433, so that the sums are multiples of it). -/
def snodes (N : ℕ) (L : ℝ) : List ℝ :=
  (List.range (N + 1)).map fun i : ℕ => L * ((i : ℝ) / N)

open Classical in
/-- Initial position of node `i` of a line of `N` segments with its ends at `r0` and `rN`,
source/Line.cpp:455-529: the catenary if the solver succeeds, the straight line if it fails or the ends
are on a vertical.  `CB` is 0 if an end is close to the seabed and -1 otherwise
(source/Line.cpp:467-475), here any value.  `none`: the arithmetic fails. -/
def lineNode (r0 rN : Fin 3 → ℝ) (N : ℕ) (L EA W CB : ℝ) (i : ℕ) : Option (Fin 3 → ℝ) :=
  if i = 0 then some r0
  else if N ≤ i then some rN
  else
    let XF := Real.sqrt ((rN 0 - r0 0) * (rN 0 - r0 0) + (rN 1 - r0 1) * (rN 1 - r0 1))
    if 0 < XF then
      match catenary (linePar r0 rN L EA W CB) (snodes N L) (2 * 100000) with
      | .ok sh => sh.nodes[i]?.map fun n =>
          ![r0 0 + n.2.1 * ((rN 0 - r0 0) / XF), r0 1 + n.2.1 * ((rN 1 - r0 1) / XF), r0 2 + n.2.2.1]
      | .fail => some ![r0 0 + (rN 0 - r0 0) * ((i : ℝ) / N), r0 1 + (rN 1 - r0 1) * ((i : ℝ) / N),
          r0 2 + (rN 2 - r0 2) * ((i : ℝ) / N)]
      | .undefined => none
      | .unfinished => none
    else some ![r0 0 + (rN 0 - r0 0) * ((i : ℝ) / N), r0 1 + (rN 1 - r0 1) * ((i : ℝ) / N),
      r0 2 + (rN 2 - r0 2) * ((i : ℝ) / N)]

end

end MD.Catenary
