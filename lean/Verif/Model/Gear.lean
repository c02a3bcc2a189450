import Verif.Model.Whole
import Verif.Model.ZeroRod
import Mathlib.Algebra.Module.TransferInstance

/-!
# Model of the whole, with the formulas of the code

The system of `Verif.Model.Whole` with the forces of `Verif.Model.Line`, `Rod` and `Body`.  Where the code throws or divides by zero what is left
in an object is `none`, and it is given no acceleration here.  Linear systems are solved with the inverse matrix, which is zero here for a
singular one.
-/

namespace MD.Rot.Quat

/-- The four coefficients, on which Eigen's sums and multiples (`coeffs()`, source/Misc.cpp:172-198) act. -/
def coeffs (K : Type) : Quat K ≃ K × K × K × K where
  toFun q := (q.w, q.x, q.y, q.z)
  invFun c := ⟨c.1, c.2.1, c.2.2.1, c.2.2.2⟩
  left_inv _ := rfl
  right_inv _ := rfl

/-- Sums of quaternions, coefficient by coefficient, source/Misc.cpp:172-198. -/
noncomputable instance : AddCommGroup (Quat ℝ) := (coeffs ℝ).addCommGroup

/-- Multiples of quaternions, coefficient by coefficient, source/Misc.cpp:172-198. -/
noncomputable instance : Module ℝ (Quat ℝ) := (coeffs ℝ).module ℝ

end MD.Rot.Quat

namespace MD.Whole

open MD.Mooring Matrix MD.Mat MD.Rot
open MD.Moored (Kind)

/-- What is read from the input, and what does not change: of lines, points, rods and bodies the properties (of the templates only what is not
a place, a velocity or water is read), the sea, and the water `kin` at a time and a place: elevation, velocity, acceleration, dynamic pressure.
`half` is the quaternion that Eigen's `FromTwoVectors` finds for vectors that point opposite ways. -/
structure Gear where
  nb : ℕ
  nr : ℕ
  np : ℕ
  nl : ℕ
  bkind : ℕ → BKind
  rkind : ℕ → RKind
  pkind : ℕ → Kind
  pts : Option ℕ → List (ℕ × V)
  rods : Option ℕ → List (ℕ × V × V)
  ends : ℕ → List (ℕ × EndPt)
  endsA : ℕ → List (ℕ × EndPt)
  endsB : ℕ → List (ℕ × EndPt)
  q0 : ℕ → V
  line : ℕ → Mooring.Line
  point : ℕ → Bodies.Point
  rod : ℕ → Rods.Rod
  body : ℕ → Bodies.Body
  env : Env
  kin : ℝ → V → ℝ × V × V × ℝ
  half : V → V → Quat ℝ

/-- What the evaluation of a line leaves for others: what `getEndStuff` gives (source/Line.hpp:686-706), and the curvatures of the ends
(source/Line.cpp:743, 755). -/
structure LineOut where
  stuff : EndPt → Option (V × V × M3 ℝ)
  curv : EndPt → ℝ

/-- What the evaluation of a rod leaves for others: the place of end A, and what `getNetForceAndMass` gives about a place for an angular
velocity (source/Rod.cpp:823-864). -/
structure RodOut where
  N : ℕ
  rA : V
  about : V → V → Option (V × V × M6 ℝ)

/-- The water at a place. -/
abbrev Water := ℝ × V × V × ℝ

namespace Gear

variable (G : Gear)

/-- The sea as an object with nodes sees it, source/Line.cpp:864, source/Rod.cpp:905. -/
def around (wt : ℕ → Water) : Env :=
  { G.env with zeta := fun j => (wt j).1, U := fun j => (wt j).2.1, Ud := fun j => (wt j).2.2.1, pdyn := fun j => (wt j).2.2.2 }

/-- A line with the places, velocities and ends that it has now. -/
def lineNow (k : ℕ) (s : Shape) : Mooring.Line :=
  { G.line k with r := s.r, rd := s.rd, endTypeA := s.endA, endTypeB := s.endB, qA := s.qA, qB := s.qB }

/-- `Line::getStateDeriv`, source/Line.cpp:771-1180: accelerations of the nodes and what others read. -/
noncomputable def lineF (k : ℕ) (s : Shape) (wt : ℕ → Water) : (ℕ → V) × LineOut :=
  let L := G.lineNow k s
  let e := G.around wt
  (fun j => (M L e j)⁻¹ *ᵥ ((Fnet L e j).getD 0),
    ⟨getEndStuff L e, fun p => match p with | .TOP => Kurv L L.N | .BOTTOM => Kurv L 0⟩)

/-- `Line::getEndSegmentMoment`, source/Line.cpp:731-771; 0 instead of a division by zero. -/
noncomputable def moment (k : ℕ) (s : Shape) (F : LineOut) (p : EndPt) (e : REnd) : V :=
  (Rods.Zero.endSegmentMoment (G.lineNow k s) (F.curv p) p (match e with | .A => .BOTTOM | .B => .TOP)).getD 0

/-- `Point::doRHS`, source/Point.cpp:320-383: the point with all it reads, of the lines the sums (330-356); `none` where an evaluation of a
line has failed. -/
noncomputable def pointF (i : ℕ) (x v : V) (w : Water) (l : List (LineOut × EndPt)) : Option Bodies.Point :=
  (l.mapM fun a : LineOut × EndPt => a.1.stuff a.2).map fun l => { G.point i with r := x, rd := v, U := w.2.1, attached := [l.sum] }

/-- `Point::getStateDeriv`, source/Point.cpp:279-299. -/
noncomputable def pointA (F : Option Bodies.Point) : V :=
  (F.map fun p => (p.doRHS G.env.rho_w G.env.g).2⁻¹ *ᵥ (p.doRHS G.env.rho_w G.env.g).1).getD 0

/-- `Rod::doRHS` and `Rod::getNetForceAndMass`, source/Rod.cpp:823-1303.  Only end A is read of the nodes: the others follow from the axis
(source/Rod.cpp:549-563, 886-894), and of the lines the sums (source/Rod.cpp:1203-1249). -/
noncomputable def rodF (i : ℕ) (_ : Quat ℝ) (w a : V) (r rd : ℕ → V) (wt : ℕ → Water) (lA lB : List (LineOut × EndPt)) : RodOut :=
  ⟨(G.rod i).N, r 0, fun rRef w' => do
    let lA ← lA.mapM fun a => a.1.stuff a.2
    let lB ← lB.mapM fun a => a.1.stuff a.2
    Rods.getNetForceAndMass { G.rod i with r0 := r 0, q := a, vA := rd 0, w := w, attachedA := [lA.sum], attachedB := [lB.sum] } (G.around wt) rRef w'⟩

/-- The solution of a system with six unknowns, `solveMat6`, source/Misc.cpp:199-209. -/
noncomputable def solve (x : V × V × M6 ℝ) : V × V :=
  let y := x.2.2⁻¹ *ᵥ Sum.elim x.1 x.2.1
  (y ∘ Sum.inl, y ∘ Sum.inr)

/-- The angular acceleration of what is held at a place which accelerates with `a`, source/Rod.cpp:668-683 and source/Body.cpp:495-510. -/
noncomputable def solvePin (x : V × V × M6 ℝ) (a : V) : V := x.2.2.toBlocks₂₂⁻¹ *ᵥ (x.2.1 - x.2.2.toBlocks₂₁ *ᵥ a)

/-- `Rod::getStateDeriv` of a free rod, source/Rod.cpp:604-665: a rod without length does not turn (639-657). -/
noncomputable def rodA (F : RodOut) : V × V :=
  ((F.about F.rA 0).map fun x => if F.N = 0 then (x.2.2.toBlocks₁₁⁻¹ *ᵥ x.1, 0) else solve x).getD 0

/-- `Rod::getStateDeriv` of a pinned rod, source/Rod.cpp:666-686. -/
noncomputable def pinA (F : RodOut) (a : V) : V := ((F.about F.rA 0).map fun x => solvePin x a).getD 0

/-- `Body::doRHS`, source/Body.cpp:537-632. -/
noncomputable def bodyF (b : ℕ) (x : V) (_ : Quat ℝ) (v w : V) (m : M3 ℝ) (wt : Water) (lP : List (V × Option Bodies.Point))
    (lR : List (V × V × RodOut)) : Option (V × V × M6 ℝ) := do
  let B : Bodies.Body := { G.body b with pos := x, OrMat := m, v := v, w := w, U := wt.2.1 }
  let own := B.ownF G.env.rho_w G.env.g
  let lP ← lP.mapM fun a => a.2.map fun p => { p with r := a.1 }.getNetForceAndMass G.env.rho_w G.env.g x w
  let lR ← lR.mapM fun a => a.2.2.about x w
  return Bodies.addAll lR (Bodies.addAll lP (own.1, own.2, B.ownM G.env.rho_w))

/-- The system, with the formulas of the code.  The rate of the quaternion (source/Rod.cpp:662-663, source/Body.cpp:494) is modelled as that of
rods with length; for a rod without length, whose quaternion is not used (source/Rod.cpp:444-450), the code has another one. -/
noncomputable def code : System (Quat ℝ) LineOut (Option Bodies.Point) RodOut (Option (V × V × M6 ℝ)) Water where
  nb := G.nb
  nr := G.nr
  np := G.np
  nl := G.nl
  bkind := G.bkind
  rkind := G.rkind
  pkind := G.pkind
  pts := G.pts
  rods := G.rods
  ends := G.ends
  endsA := G.endsA
  endsB := G.endsB
  rodN i := (G.rod i).N
  rodLen i := (G.rod i).UnstrLen
  q0 := G.q0
  lineN k := (G.line k).N
  mat := orMat
  pose x := (x.1, euler2Quat x.2)
  between a b := (Rods.fromTwoVectors a b).getD (G.half a b)
  one := Quat.one
  sea := G.kin
  moment := G.moment
  unit := Mooring.normalize
  lineF := G.lineF
  pointF := G.pointF
  pointA := G.pointA
  rodF := G.rodF
  rodA := rodA
  pinA := pinA
  quatA := quatRate
  bodyF := G.bodyF
  bodyA F := (F.map solve).getD 0
  bodyPinA F a := (F.map fun x => solvePin x a).getD 0

end Gear

end MD.Whole
