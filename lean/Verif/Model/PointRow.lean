import Verif.Model.Words

/-!
# The rows of the section of points

source/MoorDyn2.cpp:987-1097: which entries of a row become which properties of the point.
-/

namespace MD.PointRow

open MD.Text MD.Words

/-- What `Point::setup` is given, source/MoorDyn2.cpp:1090 and source/Point.cpp:57-98: type and parent, place, mass, volume, constant force, drag area and
coefficient of added mass -/
structure Props where
  type : PointType
  parent : Parent
  r0 : Val × Val × Val
  M : Val
  V : Val
  F : Val × Val × Val
  CdA : Val
  Ca : Val
deriving DecidableEq

/-- source/MoorDyn2.cpp:987-1071: a row where there are `n` bodies; the number of the point, in the first entry, is left out -/
def pointRow (n : ℕ) (row : Str) : Res Props :=
  match split ' ' row with
  | _ :: w :: x :: y :: z :: m :: v :: a :: b :: rest =>
    (pointWord n w).bind fun tp =>
      match rest with
      | c :: d :: e :: _ => .ok ⟨tp.1, tp.2, (atof x, atof y, atof z), atof m, atof v, (atof a, atof b, atof c), atof d, atof e⟩
      | _ => .ok ⟨tp.1, tp.2, (atof x, atof y, atof z), atof m, atof v, (.fin 0, .fin 0, .fin 0), atof a, atof b⟩
  | _ => .refused

end MD.PointRow
