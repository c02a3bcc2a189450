import Verif.Model.Vtk
import Mathlib.Algebra.Quaternion

/-!
# What a VTK file should hold
-/

namespace MD.Vtk

open MD.Mat

variable {F : Type}

/-- A file that programs can read: cells join points there are; each array for points has one tuple for each point and each array for cells one
for each cell, all with the number of components announced; names are not repeated. -/
structure Poly.Sound (p : Poly F) : Prop where
  cells : ∀ c ∈ p.verts ++ p.lines, ∀ i ∈ c, i < p.points.length
  perPoint : ∀ a ∈ p.pointData, a.tuples.length = p.points.length
  perCell : ∀ a ∈ p.cellData, a.tuples.length = (p.verts ++ p.lines).length
  comps : ∀ a ∈ p.pointData ++ p.cellData, ∀ t ∈ a.tuples, t.length = a.comps
  names : ((p.pointData ++ p.cellData).map fun a => a.name).Nodup

/-- The array of a name, as a table with as many rows as there are. -/
def table (l : List (Arr F)) (name : String) : Option (List (List F)) := (l.find? fun a => a.name = name).map fun a => a.tuples

/-- The vectors have the lengths they are given when the line is set up: one entry for each node or for each segment. `F` has one for each node,
although it holds one number for each segment. -/
structure LineArrays.Allocated {K : Type} (L : LineArrays K) : Prop where
  r : L.r.length = L.N + 1
  rd : L.rd.length = L.N + 1
  Kurv : L.Kurv.length = L.N + 1
  M : L.M.length = L.N + 1
  Fnet : L.Fnet.length = L.N + 1
  Dq : L.Dq.length = L.N + 1
  Dp : L.Dp.length = L.N + 1
  U : L.U.length = L.N + 1
  lstr : L.lstr.length = L.N
  ldstr : L.ldstr.length = L.N
  V : L.V.length = L.N
  T : L.T.length = L.N
  F : L.F.length = L.N + 1

/-- The same for rods. -/
structure RodArrays.Allocated {K : Type} (R : RodArrays K) : Prop where
  r : R.r.length = R.N + 1
  rd : R.rd.length = R.N + 1
  Fnet : R.Fnet.length = R.N + 1

/-- The quaternion with these components. -/
def hamilton (w x y z : ℝ) : Quaternion ℝ := ⟨w, x, y, z⟩

/-- A vector turned by a quaternion: `q v q⁻¹`. The quaternion zero turns nothing. -/
noncomputable def turned (q : Rot.Quat ℝ) (v : V3 ℝ) : V3 ℝ :=
  let h := hamilton q.w q.x q.y q.z
  if q.w = 0 ∧ q.x = 0 ∧ q.y = 0 ∧ q.z = 0 then v
  else
    let p := h * hamilton 0 (v 0) (v 1) (v 2) * h⁻¹
    ![p.imI, p.imJ, p.imK]

end MD.Vtk
