import Verif.Model.Words
import Verif.Model.LineRow

/-!
# The rows of the section of rods

source/MoorDyn2.cpp:1949-2092: which entries of a row become which properties of the rod.
-/

namespace MD.RodRow

open MD.Text MD.Words MD.Reader

/-- What `Rod::setup` and `Body::addRod` are given, source/MoorDyn2.cpp:1957-1963 and 2070-2090: the position of the class, the type and the parent, the places of both ends,
the number of segments and the letters of the outputs -/
structure Props where
  cls : ℕ
  type : RodType
  parent : Parent
  rA : Val × Val × Val
  rB : Val × Val × Val
  segs : ℤ
  out : Str
deriving DecidableEq

/-- source/MoorDyn2.cpp:1949-2092: a row where there are classes with the names `types` and `n` bodies. `refused` is the null pointer, which is put into the list of rods
(`addRod` in `Model/Words`). The number of the rod, in the first entry, is left out, and so is the output file. -/
def rodRow (types : List Str) (n : ℕ) (row : Str) : Res Props :=
  match split ' ' row with
  | _ :: t :: w :: xa :: ya :: za :: xb :: yb :: zb :: k :: o :: _ =>
    (LineRow.count k).bind fun N => (rodWord n w).bind fun tp =>
      match findType types t with
      | none => .refused
      | some i => .ok ⟨i, tp.1, tp.2, (atof xa, atof ya, atof za), (atof xb, atof yb, atof zb), N, o⟩
  | _ => .refused

end MD.RodRow
