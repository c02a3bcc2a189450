import Verif.Model.Line
import Verif.Model.Reader
import Verif.Model.Interp

/-!
# Model of the line types: from the row of the input file to the properties of a line

`MoorDyn::readLineProps` (source/MoorDyn2.cpp), `Line::setup` and the first part of
`Line::initialize` (source/Line.cpp).
-/

namespace MD.Mooring.LineType

open MD.Text MD.Reader

/-- A coefficient that may be tabulated: the value, or the arrays of a table
(`EA`, `nEApoints`, `stiffXs`, `stiffYs` and so on, source/Misc.hpp:1090-1112). -/
inductive Coef (α : Type)
  | const (v : α)
  | table (xs ys : List α)

/-- `LineProps`, source/Misc.hpp:1085-1113. -/
structure LineProps (α : Type) where
  type : Str
  d : α
  w : α
  EA : Coef α
  c : Coef α
  EI : Coef α
  Can : α
  Cat : α
  Cdn : α
  Cdt : α

/-- The result of `read_curve` as a coefficient. -/
def ofCurve : Curve → Coef Val
  | .const v => .const v
  | .table xs ys => .table xs ys

/-- `MoorDyn::readLineProps`, source/MoorDyn2.cpp:1715-1767. `none`: the null pointer. -/
def readLineProps (fs : Str → Option Str) (basepath line : Str) : Option (LineProps Val) :=
  match split ' ' line with
  | e0 :: e1 :: e2 :: e3 :: e4 :: e5 :: e6 :: e7 :: e8 :: e9 :: _ =>
    match readCurve fs basepath e3 with
    | .error _ => none
    | .ok EA =>
      match readCurve fs basepath e4 with
      | .error _ => none
      | .ok c =>
        match readCurve fs basepath e5 with
        | .error _ => none
        | .ok EI =>
          some { type := e0, d := atof e1, w := atof e2, EA := ofCurve EA, c := ofCurve c,
                 EI := ofCurve EI, Cdn := atof e6, Can := atof e7, Cdt := atof e8,
                 Cat := atof e9 }
  | _ => none

/-- The value of a coefficient that is not a table; with a table it is zero
(`*c = 0.0`, source/MoorDyn2.hpp:790). -/
def Coef.value : Coef ℝ → ℝ
  | .const v => v
  | .table _ _ => 0

/-- The interpolation of a table (`interp`), its ordinates divided by `s`. -/
noncomputable def Coef.fn (s : ℝ) : Coef ℝ → Option (ℝ → ℝ)
  | .const _ => none
  | .table xs ys => some fun x => (MD.Interp.interp xs (ys.map (· / s)) x).getD 0

/-- `A`, source/Line.cpp:144. -/
noncomputable def area (p : LineProps ℝ) : ℝ := Real.pi / 4 * p.d * p.d

/-- `E` after `setup` and `initialize`, source/Line.cpp:146 and 435-440: the last secant
of a table. -/
noncomputable def modulus (p : LineProps ℝ) : ℝ :=
  match p.EA with
  | .const v => v / area p
  | .table xs ys => ys.getLast?.getD 0 / area p / xs.getLast?.getD 0

/-- `UnstrLen` after `initialize`, source/Line.cpp:417-425: a negative number scales the
distance `D` of the ends. -/
noncomputable def unstr (U D : ℝ) : ℝ := if U < 0 then -U * D else U

/-- `c`, source/Line.cpp:442-453. -/
noncomputable def damping (p : LineProps ℝ) (len : ℝ) (N : ℕ) : ℝ :=
  if p.c.value < 0 then -p.c.value * len / N * Real.sqrt (modulus p * (p.w / area p))
  else p.c.value / area p

/-- A line after `Line::setup` (source/Line.cpp:124-192) and the part of `Line::initialize`
that sets its properties (source/Line.cpp:417-453). `B` gives the number of segments, the
positions and the ends; `U` is the length of the input file. `dampXs[0]` is the first rate
of the table. -/
noncomputable def mkLine (p : LineProps ℝ) (U : ℝ) (B : Line) : Line :=
  let len := unstr U (norm (B.r B.N - B.r 0))
  { B with
    d := p.d
    A := area p
    rho := p.w / area p
    E := modulus p
    c := damping p len B.N
    EI := p.EI.value
    Can := p.Can
    Cat := p.Cat
    Cdn := p.Cdn
    Cdt := p.Cdt
    stiff := p.EA.fn (area p)
    bstiff := p.EI.fn 1
    damp := p.c.fn 1
    dampNeg := match p.c with
      | .const _ => false
      | .table xs _ => decide (xs.head?.getD 0 < 0)
    l := fun _ => len / B.N
    V := fun _ => len / B.N * area p
    isPb := false }

/-- `NatFreqCFL::length`, source/Line.cpp:165: the characteristic length of a line, set from
the number in the input file. -/
noncomputable def cflLength (U : ℝ) (N : ℕ) : ℝ := U / N

/-- `CFL::cfl2dt(cfl, v)`, source/Util/CFL.hpp:84 and 140: the time step allowed by a line to
something moving with the velocity `v`. -/
noncomputable def cfl2dtV (len cfl v : ℝ) : ℝ := cfl * len / v

end MD.Mooring.LineType
