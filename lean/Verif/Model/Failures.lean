import Verif.Model.Words
import Verif.Model.Scheme
import Verif.Model.Attach

/-!
# The rows of the section of failures

source/MoorDyn2.cpp:1249-1345: what the entries of a row mean and which rows are refused. The section itself, from its heading to the next or to the
end of the file, is that of `Verif/Model/Reader.lean`; what failures do is in `Verif/Model/Attach.lean`.
-/

namespace MD.Failures

open MD.Text MD.Words
open MD.Scheme (stoi toUnsigned)
open MD.Attach (Support Fail)

/-- `FailProps` as read, source/Misc.hpp:1013-1032; positions in the lists of objects, from zero -/
structure Failure where
  place : Words.End
  lines : List ℕ
  time : Val
  ten : Val
deriving DecidableEq

/-- source/MoorDyn2.cpp:1325-1333: the number of a line, `atoi` converted to `unsigned int`. A number that does not fit into an `int` is undefined. -/
def lineNumber (n : ℕ) (s : Str) : Res ℕ :=
  match stoi s with
  | .invalidArgument => .refused
  | .outOfRange => .undefined
  | .ok v =>
    let id := toUnsigned v
    if id = 0 ∨ n < id then .refused else .ok (id - 1)

/-- source/MoorDyn2.cpp:1324-1336: one after the other, stopping at the first error -/
def lineNumbers (n : ℕ) : List Str → Res (List ℕ)
  | [] => .ok []
  | s :: ss => (lineNumber n s).bind fun l => (lineNumbers n ss).bind fun ls => .ok (l :: ls)

/-- source/MoorDyn2.cpp:1253-1342: a row, where there are `nP` points, `nR` rods and `nL` lines. The fifth entry is read without being there if there
are only four. -/
def failureRow (nP nR nL : ℕ) (row : Str) : Res Failure :=
  match split ' ' row with
  | _ :: w :: ls :: t :: rest =>
    (endWord nP nR w).bind fun x => (lineNumbers nL (split ',' ls)).bind fun l =>
      match rest with
      | [] => .undefined
      | T :: _ => .ok ⟨x, l, atof t, atof T⟩
  | _ => .refused

/-- source/MoorDyn2.cpp:1252-1344: the rows of the section, `FailList` -/
def failureRows (nP nR nL : ℕ) : List Str → Res (List Failure)
  | [] => .ok []
  | r :: rs => (failureRow nP nR nL r).bind fun f => (failureRows nP nR nL rs).bind fun fs => .ok (f :: fs)

/-- The point or the end of a rod, source/MoorDyn2.cpp:1283-1311 -/
def support : Words.End → Support
  | .point i => .point i
  | .rod i endA => .rod i (if endA then .A else .B)

/-- The failure that is looked at after every step, source/MoorDyn2.cpp:718-732; `none` for times that are not finite numbers, which are not followed
further -/
def armed (f : Failure) : Option (Fail ℚ) :=
  match f.time with
  | .fin q => some ⟨support f.place, f.lines, q, false⟩
  | _ => none

end MD.Failures
