import Verif.Model.Rod
import Verif.Model.Reader

/-!
# Model of the rod types: from the row of the input file to the properties of a rod

`MoorDyn::readRodProps` (source/MoorDyn2.cpp) and the first part of `Rod::setup`
(source/Rod.cpp).
-/

namespace MD.Rods.RodType

open MD.Text MD.Reader MD.Mooring

/-- `RodProps`, source/Misc.hpp:1115-1126. -/
structure RodProps (α : Type) where
  type : Str
  d : α
  w : α
  Can : α
  Cat : α
  Cdn : α
  Cdt : α
  CaEnd : α
  CdEnd : α

/-- `MoorDyn::readRodProps`, source/MoorDyn2.cpp:1768-1798. `none`: the null pointer. -/
def readRodProps (line : Str) : Option (RodProps Val) :=
  match split ' ' line with
  | e0 :: e1 :: e2 :: e3 :: e4 :: e5 :: e6 :: _ =>
    some { type := e0, d := atof e1, w := atof e2, Cdn := atof e3, Can := atof e4,
           CdEnd := atof e5, CaEnd := atof e6, Cdt := .fin 0, Cat := .fin 0 }
  | _ => none

/-- A rod after `Rod::setup` (source/Rod.cpp:80-140) with `NumSegs` segments and the ends `A` and
`B` of the input file; `R` gives its kinematics and the lines attached to it. -/
noncomputable def mkRod (p : RodProps ℝ) (NumSegs : ℕ) (A B : V) (R : Rod) : Rod :=
  { R with
    N := NumSegs
    d := p.d
    rho := p.w / (Real.pi / 4 * p.d * p.d)
    Can := p.Can
    Cat := p.Cat
    Cdn := p.Cdn
    CdEnd := p.CdEnd
    CaEnd := p.CaEnd
    UnstrLen := if NumSegs = 0 then 0 else (unitvector A B).2 }

end MD.Rods.RodType
