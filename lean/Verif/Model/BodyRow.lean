import Mathlib.Data.Fintype.Basic
import Verif.Model.Words
import Verif.Model.Reader

/-!
# The rows of the section of bodies

source/MoorDyn2.cpp:1799-1943: which entries of a row become which properties of the body.
-/

namespace MD.BodyRow

open MD.Text MD.Words MD.Reader

/-- The zeros of the code, source/MoorDyn2.cpp:1816-1817 and 1822-1823 -/
instance : Zero Val := ⟨.fin 0⟩

/-- What `Body::setup` is given, source/MoorDyn2.cpp:1940-1941: the angles still in degrees -/
structure Props where
  type : BodyType
  place : Val × Val × Val
  angles : Val × Val × Val
  M : Val
  cg : Fin 3 → Val
  inertia : Fin 3 → Val
  V : Val
  CdA : Fin 6 → Val
  Ca : Fin 6 → Val
deriving DecidableEq

/-- source/MoorDyn2.cpp:1799-1943: the number of the body, in the first entry, is left out, and so is the output file -/
def bodyRow (row : Str) : Res Props :=
  match split ' ' row with
  | _ :: w :: x :: y :: z :: rx :: ry :: rz :: m :: cg :: i :: v :: cd :: ca :: _ =>
    match bodyCG ((split '|' cg).map atof), bodyInertia ((split '|' i).map atof), bodyCdA ((split '|' cd).map atof), bodyCa ((split '|' ca).map atof) with
    | some g, some j, some d, some a => .ok ⟨bodyWord w, (atof x, atof y, atof z), (atof rx, atof ry, atof rz), atof m, g, j, atof v, d, a⟩
    | _, _, _, _ => .refused
  | _ => .refused

end MD.BodyRow
