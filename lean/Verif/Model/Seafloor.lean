import Verif.Model.Interp

/-!
# Model of `source/Seafloor.cpp`

The text of the bathymetry file is taken already split in numbers.
-/

namespace MD.Seafloor

open MD.Interp

variable {K : Type} [Field K] [LinearOrder K]

/-- `calcInsertIndex`, source/Seafloor.cpp:17-26, from index `i` on, for a vector of
`n` elements. -/
def insertLoop (value : K) (n : ℕ) : ℕ → List K → ℕ
  | _, [] => n - 1
  | i, a :: l => if value < a then (if i = 0 then 0 else i - 1) else insertLoop value n (i + 1) l

/-- `calcInsertIndex`, source/Seafloor.cpp:17-26. -/
def calcInsertIndex (list : List K) (value : K) : ℕ := insertLoop value list.length 0 list

/-- A `Seafloor` after `setup`; `shallow` is the member `minDepth`, initially minus infinity
(`none`), source/Seafloor.hpp. -/
structure Floor (K : Type) where
  px : List K
  py : List K
  grid : List (List K)
  total : K
  shallow : Option K

/-- One row `x y z` of the file, source/Seafloor.cpp:101-120. -/
def addRow (s : Floor K) (row : K × K × K) : Floor K :=
  let xi := calcInsertIndex s.px row.1
  let yi := calcInsertIndex s.py row.2.1
  { s with
    grid := s.grid.modify xi (fun r => r.set yi row.2.2)
    total := s.total + row.2.2
    shallow := match s.shallow with
      | none => some row.2.2
      | some m => if m < row.2.2 then some row.2.2 else some m }

/-- `Seafloor::setup` in 3D mode, source/Seafloor.cpp:27-130: axes and then the rows; the
numbers of ticks have already been compared with the first line of the file. -/
def setup (px py : List K) (rows : List (K × K × K)) : Floor K :=
  rows.foldl addRow
    { px := px, py := py, grid := List.replicate px.length (List.replicate py.length 0),
      total := 0, shallow := none }

/-- `averageDepth`, source/Seafloor.cpp:121. -/
def Floor.average (s : Floor K) : K := s.total / ((s.px.length * s.py.length : ℕ) : K)

/-- `Seafloor::getDepthAt`, source/Seafloor.cpp:132-141. -/
def Floor.depthAt (s : Floor K) (x y : K) : Option K := do
  let (ix, fx) ← interpFactor s.px 1 x
  let (iy, fy) ← interpFactor s.py 1 y
  interp2 s.grid ix iy fx fy

end MD.Seafloor
