import Mathlib.Data.Rat.Defs
import Mathlib.Data.List.Basic

/-!
# Model of the text utilities

Strings are lists of characters; the character classes are those of the "C" locale
restricted to ASCII (the calls of `isspace`, `isalpha`, `isdigit`, `toupper` with other
characters are not modelled).
-/

namespace MD.Text

abbrev Str := List Char

/-- `std::isspace`. -/
def isSpace (c : Char) : Bool :=
  c = ' ' || c = '\t' || c = '\n' || c = '\x0b' || c = '\x0c' || c = '\r'

/-- `std::isdigit`. -/
def isDigit (c : Char) : Bool := 48 ≤ c.toNat && c.toNat ≤ 57

def isUpper (c : Char) : Bool := 65 ≤ c.toNat && c.toNat ≤ 90
def isLower (c : Char) : Bool := 97 ≤ c.toNat && c.toNat ≤ 122

/-- `std::isalpha`. -/
def isAlpha (c : Char) : Bool := isUpper c || isLower c

/-- `::tolower` -/
def toLower (c : Char) : Char := if isUpper c then Char.ofNat (c.toNat + 32) else c

/-- `::toupper` -/
def toUpper (c : Char) : Char := if isLower c then Char.ofNat (c.toNat - 32) else c

/-- `str::lower`, source/Misc.cpp:41-47. -/
def lower (s : Str) : Str := s.map toLower

/-- `str::upper`, source/Misc.cpp:49-55. -/
def upper (s : Str) : Str := s.map toUpper

/-- `str::startswith`, source/Misc.cpp:57-61: `str.rfind(prefix, 0) == 0`. -/
def startswith (s pre : Str) : Bool := pre.isPrefixOf s

/-- `s.find(sub) != string::npos`: whether `sub` begins at some position. -/
def contains (s sub : Str) : Bool :=
  match s with
  | [] => sub.isPrefixOf []
  | c :: cs => sub.isPrefixOf (c :: cs) || contains cs sub

/-- `str::has`, source/Misc.cpp:63-72. -/
def has (s : Str) (terms : List Str) : Bool := terms.any (contains s)

/-- The loop of `str::split(str, sep)`, source/Misc.cpp:74-85: `getline` collects the
characters up to a separator or the end (`cur`: those of the current token), and the
tokens that are not empty are kept. -/
def splitGo (sep : Char) : Str → Str → List Str
  | cur, [] => if cur = [] then [] else [cur]
  | cur, c :: cs =>
    if c = sep then
      if cur = [] then splitGo sep [] cs else cur :: splitGo sep [] cs
    else splitGo sep (cur ++ [c]) cs

/-- `str::split(str, sep)`. -/
def split (sep : Char) (s : Str) : List Str := splitGo sep [] s

/-- `str::split(s)`, source/Misc.hpp:700-706: splits by spaces and, if there is exactly
one token, splits that one by tabs. -/
def splitBlank (s : Str) : List Str :=
  match split ' ' s with
  | [w] => split '\t' w
  | ws => ws

/-- `str::rtrim`, source/Misc.cpp:87-94: erases from after the last character that is not
a space. -/
def rtrim (s : Str) : Str := (s.reverse.dropWhile isSpace).reverse

/-- The loop of `str::decomposeString`, source/Misc.cpp:108-122: the positions (from `pos`)
where letters and digits change over, at most `room` of them; other characters are
skipped. -/
def marks : Bool → ℕ → ℕ → Str → List ℕ
  | _, 0, _, _ => []
  | _, _, _, [] => []
  | wasAlpha, room + 1, pos, c :: cs =>
    if (isAlpha c || isDigit c) && (isAlpha c != wasAlpha) then
      pos :: marks (!wasAlpha) room (pos + 1) cs
    else marks wasAlpha (room + 1) (pos + 1) cs

/-- The pieces of a word. -/
structure Pieces where
  let1 : Str
  num1 : Str
  let2 : Str
  num2 : Str
  let3 : Str
deriving DecidableEq

/-- `std::string(markers[a], markers[b])`. -/
def slice (s : Str) (a b : ℕ) : Str := (s.drop a).take (b - a)

/-- `str::decomposeString`, source/Misc.cpp:96-132. -/
def decompose (word : Str) : Pieces :=
  let s := upper word
  let m := marks true 5 0 s
  let e := s.length
  let mk := fun k => m.getD k e
  { let1 := slice s 0 (mk 0)
    num1 := slice s (mk 0) (mk 1)
    let2 := slice s (mk 1) (mk 2)
    num2 := slice s (mk 2) (mk 3)
    let3 := slice s (mk 3) e }

/-- The lines that `while (f.good()) { getline(f, line); .. }` sees
(source/MoorDyn2.cpp:1685-1690, source/MoorDyn2.hpp:716-724): the pieces between the ends
of line, one more than there are of these. -/
def goodLines : Str → List Str
  | [] => [[]]
  | c :: cs =>
    if c = '\n' then [] :: goodLines cs
    else match goodLines cs with
      | l :: ls => (c :: l) :: ls
      | [] => [[c]]

/-- The lines that `while (getline(f, line)) { .. }` sees (`fileIO::fileToLines`,
source/Misc.cpp:149-160): there is no line after a final end of line. -/
def fileLines (s : Str) : List Str :=
  let l := goodLines s
  if l.getLast? = some [] then l.dropLast else l

/-! ## Numbers -/

/-- A converted number. -/
inductive Val
  | fin (q : ℚ)
  | inf (neg : Bool)
  | nan
deriving DecidableEq

/-- The value of a list of decimal digits. -/
def natOf (ds : Str) : ℕ := ds.foldl (fun a c => 10 * a + (c.toNat - 48)) 0

/-- A sign and what follows. -/
def sign : Str → Bool × Str
  | '-' :: s => (true, s)
  | '+' :: s => (false, s)
  | s => (false, s)

/-- The exponent part: `e` or `E`, a sign and some digits, or nothing. -/
def exponent : Str → ℤ
  | c :: s =>
    if c = 'e' || c = 'E' then
      let (neg, s) := sign s
      let ds := s.takeWhile isDigit
      if neg then -(natOf ds : ℤ) else natOf ds
    else 0
  | [] => 0

def scale10 (e : ℤ) : ℚ := if 0 ≤ e then 10 ^ e.toNat else 1 / 10 ^ (-e).toNat

/-- The digits after the point, if there is one, and what follows. -/
def fraction : Str → Str × Str
  | '.' :: r => (r.takeWhile isDigit, r.dropWhile isDigit)
  | r => ([], r)

/-- `strtold` (C standard, 7.22.1.3), as used by `std::stold`, `atof`: blanks, a sign, and
the longest beginning that is `inf`, `nan` or a decimal number; `none` if there is none
(`std::invalid_argument`).  Simplified: the value is exact, there is no `out_of_range`,
and a hexadecimal number reads as its initial zero. -/
def strtold (s : Str) : Option Val :=
  let s := s.dropWhile isSpace
  let (neg, s) := sign s
  if startswith (lower s) "inf".toList then some (.inf neg)
  else if startswith (lower s) "nan".toList then some .nan
  else
    let ip := s.takeWhile isDigit
    let r := s.dropWhile isDigit
    let (fp, r) := fraction r
    if ip = [] ∧ fp = [] then none
    else
      let q : ℚ := natOf (ip ++ fp) / 10 ^ fp.length * scale10 (exponent r)
      some (.fin (if neg then -q else q))

/-- `atof`: zero if there is no number. -/
def atof (s : Str) : Val := (strtold s).getD (.fin 0)

end MD.Text
