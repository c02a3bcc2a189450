import Verif.Model.Words
import Verif.Model.Scheme

/-!
# The rows of the section of lines

source/MoorDyn2.cpp:1126-1243: which entries of a row become which properties of the line.
-/

namespace MD.LineRow

open MD.Text MD.Words MD.Scheme MD.Reader

/-- What is made of a row, source/MoorDyn2.cpp:1137-1180 and 1187-1241: the position of the type, the ends, the unstretched length, the number of segments
and the letters of the outputs -/
structure Props where
  type : ℕ
  endA : Words.End
  endB : Words.End
  len : Val
  segs : ℤ
  out : Str
deriving DecidableEq

/-- `atoi`, source/MoorDyn2.cpp:1140: zero without a number; numbers that do not fit into an `int` are undefined -/
def count (s : Str) : Res ℤ :=
  match stoi s with
  | .ok v => .ok v
  | .invalidArgument => .ok 0
  | .outOfRange => .undefined

/-- source/MoorDyn2.cpp:1126-1241: a row where there are types with the names `types`, `nP` points and `nR` rods; the number of the line, in the first
entry, is left out, and so is the output file -/
def lineRow (types : List Str) (nP nR : ℕ) (row : Str) : Res Props :=
  match split ' ' row with
  | _ :: t :: a :: b :: l :: n :: o :: _ =>
    (count n).bind fun N =>
      match findType types t with
      | none => .refused
      | some i => (endWord nP nR a).bind fun x => (endWord nP nR b).bind fun y => .ok ⟨i, x, y, atof l, N, o⟩
  | _ => .refused

end MD.LineRow
