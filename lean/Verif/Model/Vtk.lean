import Verif.Model.Rotation
import Verif.Model.Text
import Verif.Model.Api
import Mathlib.Data.List.Basic

/-!
# Model of the VTK output

`MoorDyn_SaveVTK`, `MoorDyn_SaveBodyVTK`, `MoorDyn_SaveRodVTK`, `MoorDyn_SavePointVTK`, `MoorDyn_SaveLineVTK` and `MoorDyn_UseBodyVTK`, for a
library built with VTK. What VTK does is modelled as its documentation says: containers of points, cells and arrays, a rotation by an angle about
an axis, a list of blocks that grows. The bytes of the files are not modelled. `single` is the rounding of a `double` to a `float`, which VTK keeps.
-/

namespace MD.Vtk

open Matrix MD.Mat MD.Rot

/-- `vtkFloatArray` (or `vtkCharArray`): a name, the number of components and the tuples -/
structure Arr (F : Type) where
  name : String
  comps : ℕ
  tuples : List (List F)
deriving DecidableEq

/-- `vtkPolyData`: points, cells (`SetVerts`, `SetLines`) by the numbers of their points, and arrays for points and for cells -/
structure Poly (F : Type) where
  points : List (List F)
  verts : List (List ℕ)
  lines : List (List ℕ)
  pointData : List (Arr F)
  cellData : List (Arr F)
deriving DecidableEq

section

variable {K F : Type} [CommRing K] (single : K → F)

/-- the three components of a vector -/
def three (v : V3 K) : List F := [single (v 0), single (v 1), single (v 2)]

/-- the arguments of `SetTuple9`, source/Line.cpp:1489-1498 and source/Point.cpp:432-441 -/
def nine (m : M3 K) : List F :=
  [single (m 0 0), single (m 0 1), single (m 0 2), single (m 1 0), single (m 1 1), single (m 1 2), single (m 2 0), single (m 2 1), single (m 2 2)]

/-- `vector_to_vtk_array` of numbers, source/Util/VTK_Util.cpp:5-18 -/
def scalars (name : String) (data : List K) : Arr F := ⟨name, 1, data.map fun x => [single x]⟩

/-- `vector_to_vtk_array` of vectors, source/Util/VTK_Util.hpp:48-65. The number of components is taken from the first vector: without vectors
the behaviour is undefined (`none`). -/
def vectors (name : String) (data : List (V3 K)) : Option (Arr F) :=
  match data with
  | [] => none
  | v :: vs => some ⟨name, 3, (v :: vs).map (three single)⟩

/-- What a line keeps, source/Line.hpp; the lengths of the vectors are those of source/Line.cpp:192-221,415. `U` is that of
`Waves::getWaveKinLine`. -/
structure LineArrays (K : Type) where
  N : ℕ
  r : List (V3 K)
  rd : List (V3 K)
  Kurv : List K
  M : List (M3 K)
  Fnet : List (V3 K)
  Dq : List (V3 K)
  Dp : List (V3 K)
  U : List (V3 K)
  lstr : List K
  ldstr : List K
  V : List K
  T : List (V3 K)
  F : List K

/-- The `i`-th turn of the loop of `Line::getVTK`, source/Line.cpp:1484-1504: the point, the drag, the mass matrix and the force of a node, and the
cell. `none`: an index out of range. -/
def lineTurn (L : LineArrays K) (i : ℕ) : Option (List F × List F × List F × List F × List (List ℕ)) := do
  let r ← L.r[i]?
  let dq ← L.Dq[i]?
  let dp ← L.Dp[i]?
  let m ← L.M[i]?
  let f ← L.Fnet[i]?
  return (three single r, three single (dq + dp), nine single m, three single f, if i = L.r.length - 1 then [] else [[i, i + 1]])

/-- `Line::getVTK`, source/Line.cpp:1454-1527. The tuples of `Fnet` are written twice, the second time by the loop. The object `line` of the code is
not used by it and left out. -/
def lineVtk (L : LineArrays K) : Option (Poly F) := do
  let rd ← vectors single "rd" L.rd
  let _ ← vectors single "Fnet" L.Fnet
  let U ← vectors single "U" L.U
  let T ← vectors single "T" L.T
  let turns ← (List.range (L.N + 1)).mapM (lineTurn single L)
  return {
    points := turns.map fun x => x.1
    verts := []
    lines := (turns.map fun x => x.2.2.2.2).flatten
    cellData := [scalars single "lstr" L.lstr, scalars single "ldstr" L.ldstr, scalars single "V" L.V, T, scalars single "F" L.F]
    pointData := [rd, scalars single "Kurv" L.Kurv, ⟨"M", 9, turns.map fun x => x.2.2.1⟩, ⟨"Fnet", 3, turns.map fun x => x.2.2.2.1⟩,
      ⟨"Drag", 3, turns.map fun x => x.2.1⟩, U] }

/-- What a rod keeps; the lengths of the vectors are those of source/Rod.cpp:103-119. -/
structure RodArrays (K : Type) where
  N : ℕ
  r : List (V3 K)
  rd : List (V3 K)
  Fnet : List (V3 K)

/-- The turns of the loop of `Rod::getVTK`, and what it does for a rod without segments, source/Rod.cpp:1520-1525,1528-1532 -/
def rodTurn (R : RodArrays K) (i : ℕ) : Option (List F × List F × List F) := do
  let r ← R.r[i]?
  let rd ← R.rd[i]?
  let f ← R.Fnet[i]?
  return (three single r, three single rd, three single f)

/-- `Rod::getVTK`, source/Rod.cpp:1509-1549 -/
def rodVtk (R : RodArrays K) : Option (Poly F) := do
  let turns ← (List.range (if R.N = 0 then 1 else R.r.length)).mapM (rodTurn single R)
  return {
    points := turns.map fun x => x.1
    verts := if R.N = 0 then [[0]] else []
    lines := if R.N = 0 then [] else [List.range R.r.length]
    pointData := [⟨"rd", 3, turns.map fun x => x.2.1⟩, ⟨"Fnet", 3, turns.map fun x => x.2.2⟩]
    cellData := [] }

/-- `Point::getVTK`, source/Point.cpp:420-457 -/
def pointVtk (r rd Fnet : V3 K) (M : M3 K) : Poly F where
  points := [three single r]
  verts := [[0]]
  lines := []
  pointData := [⟨"rd", 3, [three single rd]⟩, ⟨"M", 9, [nine single M]⟩, ⟨"Fnet", 3, [three single Fnet]⟩]
  cellData := []

end

/-! ## Bodies -/

/-- Eigen `AngleAxis::operator=(const QuaternionBase&)`: the angle and the axis. `stableNorm` is the norm without overflow. -/
noncomputable def angleAxis (q : Quat ℝ) : ℝ × V3 ℝ :=
  let n := Real.sqrt (q.x * q.x + q.y * q.y + q.z * q.z)
  if n ≠ 0 then
    let angle := 2 * atan2 n |q.w|
    let n := if q.w < 0 then -n else n
    (angle, ![q.x / n, q.y / n, q.z / n])
  else (0, ![1, 0, 0])

/-- `vtkTransform::RotateWXYZ` on a new transformation, in degrees: the rotation by an angle about an axis. -/
noncomputable def rotateWXYZ (angle : ℝ) (a : V3 ℝ) : M3 ℝ :=
  if angle = 0 ∨ a = 0 then 1
  else
    let angle := angle * (Real.pi / 180)
    let w := Real.cos (1 / 2 * angle)
    let f := Real.sin (1 / 2 * angle) / Real.sqrt (a 0 * a 0 + a 1 * a 1 + a 2 * a 2)
    let x := a 0 * f
    let y := a 1 * f
    let z := a 2 * f
    let s := w * w - x * x - y * y - z * z
    !![x * x * 2 + s, (x * y - w * z) * 2, (x * z + w * y) * 2;
       (x * y + w * z) * 2, y * y * 2 + s, (y * z - w * x) * 2;
       (x * z - w * y) * 2, (y * z + w * x) * 2, z * z * 2 + s]

/-- The shape that represents a body, with vertices in the axes of the body -/
structure Shape (F : Type) where
  vertices : List (V3 ℝ)
  verts : List (List ℕ)
  lines : List (List ℕ)
  pointData : List (Arr F)
  cellData : List (Arr F)

/-- `Body::defaultVTK`, source/Body.cpp:744-783 -/
def axes {F : Type} (char : Char → F) : Shape F where
  vertices := [![0, 0, 0], ![1, 0, 0], ![0, 1, 0], ![0, 0, 1]]
  verts := []
  lines := [[0, 1], [0, 2], [0, 3]]
  pointData := []
  cellData := [⟨"axis", 1, [[char 'x'], [char 'y'], [char 'z']]⟩]

/-- `Body::getVTK`, source/Body.cpp:695-724: turned (`rad2deg`, source/Misc.hpp:997) and then moved. Arrays of vectors and normals of the shape,
which the filter turns too, are not modelled. -/
noncomputable def bodyVtk {F : Type} (single : ℝ → F) (shape : Shape F) (pos : V3 ℝ) (quat : Quat ℝ) : Poly F :=
  let aa := angleAxis quat
  let R := rotateWXYZ (180 / Real.pi * aa.1) aa.2
  { points := shape.vertices.map fun p => three single (R *ᵥ p + pos)
    verts := shape.verts
    lines := shape.lines
    pointData := shape.pointData
    cellData := shape.cellData }

/-! ## The whole system -/

/-- `vtkMultiBlockDataSet::SetBlock`: the list grows if it has to. -/
def setBlock {β : Type} (l : List (Option β)) (i : ℕ) (b : β) : List (Option β) :=
  if i < l.length then l.set i (some b) else l ++ List.replicate (i - l.length) none ++ [some b]

/-- A loop of `MoorDyn::getVTK`: the blocks from number `n` on -/
def setBlocks {β : Type} (l : List (Option β)) (n : ℕ) (bs : List β) : List (Option β) :=
  (List.range bs.length).foldl (fun l i => bs[i]?.elim l (setBlock l (n + i))) l

/-- `MoorDyn::getVTK`, source/MoorDyn2.cpp:807-827, from what the objects give. The blocks made beforehand leave out the bodies. -/
def systemVtk {β : Type} (bodies points rods lines : List β) : List (Option β) :=
  let out := List.replicate (rods.length + points.length + lines.length) none
  let out := setBlocks out 0 bodies
  let n := bodies.length
  let out := setBlocks out n points
  let n := n + points.length
  let out := setBlocks out n rods
  let n := n + rods.length
  setBlocks out n lines

/-! ## The functions of the API -/

open MD.Api MD.Text

/-- The codes `vtkErrorCode` that the library tells apart -/
inductive VtkErr
  | noError | fileNotFound | cannotOpenFile | noFileName | unrecognizedFileType | fileFormat | outOfDiskSpace | other
deriving DecidableEq

/-- `io::vtk_error`, source/IO.cpp:638-657 -/
def vtkError : VtkErr → ℤ
  | .noError => 0
  | .fileNotFound | .cannotOpenFile | .noFileName => -2
  | .unrecognizedFileType | .fileFormat => -6
  | .outOfDiskSpace => -5
  | .other => -255

/-- `saveVTK` of an object, source/Line.cpp:1529-1545, source/Rod.cpp:1551-1567, source/Point.cpp:459-475, source/Body.cpp:726-742,
source/MoorDyn2.cpp:829-845, and the function of the API around it, source/Body.cpp:882-900 and alike. `obj` is what `getVTK` gives; `writes` is how
VTK ends when it writes it. The result are the code and what has been written. -/
def saveVTK {H β : Type} (h : Option H) (obj : H → Option β) (writes : β → VtkErr) : Call (Option β) :=
  checked h none fun x =>
    match obj x with
    | none => .undefined
    | some o => guarded none (match throwErr (vtkError (writes o)) with | .ok () => .ok (some (some o)) | .error e => .error e)

/-- `MoorDyn_UseBodyVTK`, source/Body.cpp:902-952: `vtp` and `stl` are how the readers of VTK end with a file, and what they read. The output is the
shape of the body afterwards. A null handle has no shape. -/
def useBodyVTK {S : Type} (h : Option S) (name : Str) (vtp stl : Str → VtkErr × S) : Call (Option S) :=
  checked h none fun old =>
    match (split '.' name).getLast? with
    | none => .undefined
    | some w =>
      let ext := lower w
      if ext = "vtp".toList then
        let r := vtp name
        if vtkError r.1 = 0 then .returns 0 (some r.2) else .returns (vtkError r.1) (some old)
      else if ext = "stl".toList then
        let r := stl name
        if vtkError r.1 = 0 then .returns 0 (some r.2) else .returns (vtkError r.1) (some old)
      else .returns (-1) (some old)

end MD.Vtk
