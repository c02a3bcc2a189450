import Verif.Model.Text
import Mathlib.Data.Fin.VecNotation

/-!
# Model of the reading of the input file

Tables of properties, the entries of bodies, state indices, the traversal of sections and
the acceptance of malformed entries.
-/

namespace MD.Reader

open MD.Text

/-! ## Tables of properties -/

/-- The errors of `read_curve`. -/
inductive CurveErr
  | noFile | tooFew | badRow | tooMany
deriving DecidableEq

/-- `nCoef`, source/Misc.hpp:1040. -/
def nCoef : ℕ := 30

/-- The loop over the rows of a table, source/MoorDyn2.hpp:733-746: both numbers are read
from the first entry. -/
def curveRows : List Str → Except CurveErr (List Val × List Val)
  | [] => .ok ([], [])
  | l :: ls =>
    match split ' ' l with
    | e0 :: _ :: _ =>
      match curveRows ls with
      | .ok (xs, ys) => .ok (atof e0 :: xs, atof e0 :: ys)
      | .error e => .error e
    | _ => .error .badRow

/-- `read_curve(entry, x, y)`, source/MoorDyn2.hpp:691-750.  `fs`: the contents of the
files that can be opened.  The exception `out_of_range` is not modelled. -/
def readCurveV (fs : Str → Option Str) (basepath entry : Str) :
    Except CurveErr (List Val × List Val) :=
  match strtold entry with
  | some v => .ok ([.fin 0], [v])
  | none =>
    match fs (basepath ++ entry) with
    | none => .error .noFile
    | some txt =>
      if (goodLines txt).length < 5 then .error .tooFew
      else curveRows (((goodLines txt).drop 3).map rtrim)

/-- What a property of a line type is after reading. -/
inductive Curve
  | const (v : Val)
  | table (xs ys : List Val)
deriving DecidableEq

/-- `read_curve(entry, c, n, x, y)`, source/MoorDyn2.hpp:765-796.  The number of points is
zero beforehand (`new LineProps()`, source/MoorDyn2.cpp:1724): the statement `n = 0` in
line 778, which changes the pointer only, has no consequences. -/
def readCurve (fs : Str → Option Str) (basepath entry : Str) : Except CurveErr Curve :=
  match readCurveV fs basepath entry with
  | .error e => .error e
  | .ok (xs, ys) =>
    if xs.length = 1 then .ok (.const (ys.getLast?.getD (.fin 0)))
    else if nCoef < xs.length then .error .tooMany
    else .ok (.table xs ys)

/-! ## Entries of bodies -/

variable {K : Type}

/-- The drag areas, source/MoorDyn2.cpp:1853-1880: `CdA` is zero at first (line 1816), the
loops for three and six numbers begin at 1. -/
def bodyCdA [Zero K] : List K → Option (Fin 6 → K)
  | [a] => some ![a, a, a, a, a, a]
  | [a, b] => some ![a, a, a, b, b, b]
  | [_, b, c] => some ![0, b, c, 0, b, c]
  | [_, b, c, d, e, f] => some ![0, b, c, d, e, f]
  | _ => none

/-- The centre of gravity, source/MoorDyn2.cpp:1819-1834: one number is its height. -/
def bodyCG [Zero K] : List K → Option (Fin 3 → K)
  | [a] => some ![0, 0, a]
  | [a, b, c] => some ![a, b, c]
  | _ => none

/-- The inertia, source/MoorDyn2.cpp:1836-1851. -/
def bodyInertia : List K → Option (Fin 3 → K)
  | [a] => some ![a, a, a]
  | [a, b, c] => some ![a, b, c]
  | _ => none

/-- The added mass coefficients, source/MoorDyn2.cpp:1882-1898: the rotational ones stay
zero (line 1817). -/
def bodyCa [Zero K] : List K → Option (Fin 6 → K)
  | [a] => some ![a, a, a, 0, 0, 0]
  | [a, b, c] => some ![a, b, c, 0, 0, 0]
  | _ => none

/-! ## State indices -/

/-- What is read, as far as it gets states. -/
inductive Obj
  /-- bodies, source/MoorDyn2.cpp:1902-1930 -/
  | freeBody | pinnedBody
  /-- points, source/MoorDyn2.cpp:1057-1064 -/
  | freePoint
  /-- rods, source/MoorDyn2.cpp:1973-2030 -/
  | freeRod | pinnedRod
  /-- lines, source/MoorDyn2.cpp:1183-1186; the number of segments is not checked -/
  | line (segs : ℤ)
  /-- fixed and coupled objects -/
  | other
deriving DecidableEq

/-- The increment of `nX` (an unsigned 32-bit integer; the wrap around is not modelled,
`nX` is an integer here). -/
def Obj.states : Obj → ℤ
  | .freeBody => 12
  | .pinnedBody => 6
  | .freePoint => 6
  | .freeRod => 12
  | .pinnedRod => 6
  | .line n => 6 * (n - 1)
  | .other => 0

/-- `nX` and the indices given (with their objects). -/
structure States where
  nX : ℤ
  starts : List (Obj × ℤ)

/-- `XStateIs.push_back(nX); nX += ..`. -/
def States.add (s : States) (o : Obj) : States :=
  if o = .other then s else ⟨s.nX + o.states, s.starts ++ [(o, s.nX)]⟩

/-- Reading the objects of a file (bodies, points, rods, lines). -/
def readAll (os : List Obj) : States := os.foldl States.add ⟨0, []⟩

/-- `detachLines`, source/MoorDyn2.cpp:2228-2233: `nX += 6` is before
`PointStateIs.push_back(nX)`. -/
def States.detach (s : States) : States := ⟨s.nX + 6, s.starts ++ [(.freePoint, s.nX + 6)]⟩

/-! ## Traversal of the sections -/

/-- What happens to a line of a section: reading goes on, stops with an error, or the loop
is left. -/
inductive Next (σ : Type)
  | cont (s : σ)
  | err (code : ℤ)
  | brk (s : σ)

/-- The outcome of reading: `oob`: `in_txt[i]` beyond the last line (undefined). -/
inductive Outcome (σ : Type)
  | oob
  | err (code : ℤ)
  | ok (s : σ)

def dashes : Str := "---".toList

/-- `while ((in_txt[i].find("---") == npos) && (i < in_txt.size())) { .. i++; }`, for
instance source/MoorDyn2.cpp:862-879, with the lines from index `i` on: the line is read
before the index is compared. -/
def scan {σ : Type} (h : σ → Str → Next σ) : List Str → σ → Outcome σ
  | [], _ => .oob
  | l :: ls, s =>
    if contains l dashes then .ok s
    else match h s l with
      | .cont s' => scan h ls s'
      | .err e => .err e
      | .brk s' => .ok s'

/-- A section: its names and how its lines are read. -/
structure Section (σ : Type) where
  names : List Str
  h : σ → Str → Next σ

/-- The lines to skip after the header, source/MoorDyn2.cpp:1708-1711. -/
def skip (names : List Str) : ℕ :=
  if names.head? = some "OPTIONS".toList ∨ names.head? = some "OUTPUT".toList then 1 else 3

/-- `findStartOfSection`, source/MoorDyn2.cpp:1695-1714: the first line with dashes and one
of the names, and then some more lines. -/
def findStart (txt : List Str) (names : List Str) : Option ℕ :=
  match txt.findIdx? fun l => contains l dashes && has (upper l) names with
  | some i => some (i + skip names)
  | none => none

/-- One `if ((i = findStartOfSection(..)) != -1) { .. }` of `ReadInFile`. -/
def readSection {σ : Type} (txt : List Str) (sec : Section σ) (s : σ) : Outcome σ :=
  match findStart txt sec.names with
  | none => .ok s
  | some i => scan sec.h (txt.drop i) s

/-- The sections of `ReadInFile`, source/MoorDyn2.cpp:847-1584, one after another. -/
def readSections {σ : Type} (txt : List Str) : List (Section σ) → σ → Outcome σ
  | [], s => .ok s
  | sec :: secs, s =>
    match readSection txt sec s with
    | .ok s' => readSections txt secs s'
    | o => o

/-- The names of the sections in the order they are read (the options twice),
source/MoorDyn2.cpp:859, 882, 923, 941, 959, 977, 1102, 1115, 1249, 1349. -/
def sectionNames : List (List Str) :=
  [["OPTIONS".toList], ["OPTIONS".toList], ["LINE DICTIONARY".toList, "LINE TYPES".toList],
   ["ROD DICTIONARY".toList, "ROD TYPES".toList],
   ["BODIES".toList, "BODY LIST".toList, "BODY PROPERTIES".toList],
   ["POINTS".toList, "POINT LIST".toList, "POINT PROPERTIES".toList,
    "CONNECTION PROPERTIES".toList, "NODE PROPERTIES".toList],
   ["RODS".toList, "ROD LIST".toList, "ROD PROPERTIES".toList],
   ["LINES".toList, "LINE LIST".toList, "LINE PROPERTIES".toList],
   ["FAILURE".toList], ["OUTPUT".toList]]

/-- The first pass over the options, source/MoorDyn2.cpp:862-879: looks for `writeLog`.
`setupLog`: what `SetupLog` does with the value. -/
def optionsFirst {σ : Type} (setupLog : σ → Str → Except ℤ σ) (s : σ) (l : Str) : Next σ :=
  match split ' ' l with
  | v :: n :: _ =>
    if n = "writeLog".toList then
      match setupLog s v with
      | .ok s' => .brk s'
      | .error e => .err e
    else .cont s
  | _ => .cont s

/-! ## Malformed entries -/

/-- What reading an entry with too few fields leads to. -/
inductive Short
  /-- the constructor fails with `MOORDYN_INVALID_INPUT` -/
  | rejected
  /-- the entry is ignored -/
  | ignored
  /-- the entry is read -/
  | accepted
  /-- undefined: a null pointer is used, or a field that does not exist is read -/
  | undefined
deriving DecidableEq

/-- The sections with entries of a number of fields. -/
inductive Kind
  | options | lineType | rodType | body | point | rod | line | failure
deriving DecidableEq

/-- The number of fields compared with: options source/MoorDyn2.cpp:887, line types 1720,
rod types 1772, bodies 1802, points 988, rods 1953, lines 1127, failures 1254. -/
def Kind.checked : Kind → ℕ
  | .options => 2
  | .lineType => 10
  | .rodType => 7
  | .body => 14
  | .point => 9
  | .rod => 11
  | .line => 7
  | .failure => 4

/-- The indices of the fields read from an entry with `n` fields: options
source/MoorDyn2.cpp:891, 2104-2105; line types 1726-1752; rod types 1777-1783; bodies
1807-1900; points 998-1027; rods 1957-1964; lines 1137-1141 and 1193; failures 1269, 1321,
1336 and 1337. -/
def Kind.fields (n : ℕ) : Kind → List ℕ
  | .options => [0, 1]
  | .lineType => [0, 1, 2, 6, 7, 8, 9, 3, 4, 5]
  | .rodType => [0, 1, 2, 3, 4, 5, 6]
  | .body => [0, 2, 3, 4, 5, 6, 7, 8, 11, 9, 10, 12, 13, 1]
  | .point => if 12 ≤ n then [0, 5, 6, 2, 7, 3, 8, 4, 9, 10, 11, 1] else [0, 5, 6, 2, 3, 4, 7, 8, 1]
  | .rod => [0, 1, 3, 4, 5, 6, 7, 8, 9, 10, 2]
  | .line => [0, 1, 4, 5, 6, 2, 3]
  | .failure => [1, 2, 3, 4]

/-- What the caller does with an entry that is too short: options are skipped (887-890);
the null pointers of line types, rod types and bodies are checked (930, 947, 967); points,
lines and failures return the error themselves; the null pointer of a rod is stored in the
list (1108-1109) and dereferenced at the latest in line 1660. -/
def Kind.onShort : Kind → Short
  | .options => .ignored
  | .rod => .undefined
  | _ => .rejected

/-- Reading an entry with `n` fields, which are meaningful. -/
def short (k : Kind) (n : ℕ) : Short :=
  if n < k.checked then k.onShort
  else if (k.fields n).all (· < n) then .accepted
  else .undefined

/-- The last type with a name wins, source/MoorDyn2.cpp:1142-1146 (lines), 2037-2041
(rods). -/
def findType (types : List Str) (t : Str) : Option ℕ :=
  (List.range types.length).foldl (fun r j => if types[j]? = some t then some j else r) none

end MD.Reader
