import Verif.Model.Interp
import Mathlib.Algebra.Order.Floor.Defs
import Mathlib.Algebra.Order.Floor.Semiring
import Mathlib.Data.Fin.VecNotation

/-!
# Model of `source/Waves.cpp`

Grid look-ups, external kinematics and their sum.  Velocities are elements of a module `V`
over the ordered field `K` of coordinates and times.  `none` is an operation that the code
leaves undefined (out of range access, conversion of a negative number to unsigned).
-/

namespace MD.Waves

open MD.Interp

variable {K V : Type} [Field K] [LinearOrder K] [FloorSemiring K] [AddCommGroup V] [Module K V]

/-! ## Grids -/

/-- The loop `while (it > nt - 1) it -= nt;`, source/Waves.cpp:144-145. -/
def wrap (nt : ℕ) (it : ℕ) : ℕ :=
  if _h : nt - 1 < it ∧ 0 < nt then wrap nt (it - nt) else it
termination_by it
decreasing_by omega

/-- Time index and factor of a grid look-up, source/Waves.cpp:137-146 and 215-224.
Conversion of `floor(quot)` to `unsigned int` is undefined when it is negative or does not
fit; the increment is asked to fit as well. -/
def timeFactor (nt : ℕ) (dt t : K) : Option (ℕ × K) :=
  if 1 < nt then
    let quot := t / dt
    if quot < 0 then none
    else
      let it := ⌊quot⌋₊
      if 2 ^ 32 - 1 ≤ it then none
      else
        let ft := quot - it
        let it := it + 1
        some (wrap nt it, ft)
  else some (0, 0)

/-- Vertical stretching, source/Waves.cpp:155-169 (and source/Waves/SpectrumKin.cpp:61-74);
`none` when the water column has no height (division by zero). -/
def stretch (avg bottom elev z : K) : Option K :=
  let d := elev - bottom
  if d = 0 then none
  else
    let s := (-avg * (z - bottom)) / d + avg
    if 0 < s then some 0 else some s

/-- The data of a `WaveGrid` (source/Waves.hpp), `V` for velocities and accelerations. -/
structure WaveGrid (K V : Type) where
  px : List K
  py : List K
  pz : List K
  nt : ℕ
  dt : K
  zetas : List (List (List K))
  vel : List (List (List (List V)))
  acc : List (List (List (List V)))
  pdyn : List (List (List (List K)))

/-- Water kinematics at a point. -/
structure Kin (K V : Type) where
  zeta : K
  vel : V
  acc : V
  pdyn : K
deriving DecidableEq

/-- `WaveGrid::getWaveKin`, source/Waves.cpp:123-183; `bottom` and `avg` are what the
`SeafloorProvider` answers for the position. -/
def WaveGrid.kin (g : WaveGrid K V) (x y z t bottom avg : K) : Option (Kin K V) := do
  let (ix, fx) ← interpFactor g.px 1 x
  let (iy, fy) ← interpFactor g.py 1 y
  let (it, ft) ← timeFactor g.nt g.dt t
  let elev ← interp3 g.zetas ix iy it fx fy ft
  let s ← stretch avg bottom elev z
  let (iz, fz) ← interpFactor g.pz 1 s
  let vel ← interp4 g.vel ix iy iz it fx fy fz ft
  let acc ← interp4 g.acc ix iy iz it fx fy fz ft
  let pdyn ← interp4 g.pdyn ix iy iz it fx fy fz ft
  return ⟨elev, vel, acc, pdyn⟩

/-- The data of a `CurrentGrid` (source/Waves.hpp). -/
structure CurrentGrid (K V : Type) where
  px : List K
  py : List K
  pz : List K
  nt : ℕ
  dt : K
  vel : List (List (List (List V)))
  acc : List (List (List (List V)))

/-- `CurrentGrid::getCurrentKin`, source/Waves.cpp:203-245. -/
def CurrentGrid.kin (g : CurrentGrid K V) (x y z t : K) : Option (V × V) := do
  let (ix, fx) ← interpFactor g.px 1 x
  let (iy, fy) ← interpFactor g.py 1 y
  let (it, ft) ← timeFactor g.nt g.dt t
  let (iz, fz) ← interpFactor g.pz 1 z
  let vel ← interp4 g.vel ix iy iz it fx fy fz ft
  let acc ← interp4 g.acc ix iy iz it fx fy fz ft
  return (vel, acc)

/-! ## Sum of waves and current -/

/-- A position. -/
structure Pos (K : Type) where
  x : K
  y : K
  z : K

/-- `Waves::getWaveKin`, source/Waves.cpp:604-660, given the wave and the current
providers (`none` is the null pointer); all at the same time. -/
def pointKin (wave : Option (Pos K → Kin K V)) (current : Option (Pos K → V × V)) (p : Pos K) :
    Kin K V :=
  match wave, current with
  | none, none => ⟨0, 0, 0, 0⟩
  | wave, current =>
    let s : Kin K V := ⟨0, 0, 0, 0⟩
    let s := match wave with
      | none => s
      | some w =>
        let k := w p
        ⟨s.zeta + k.zeta, s.vel + k.vel, s.acc + k.acc, s.pdyn + k.pdyn⟩
    match current with
    | none => s
    | some c => { s with vel := s.vel + (c p).1, acc := s.acc + (c p).2 }

/-- The two per-node stores of `Waves`, `nodeKin` and `waveKin` (source/Waves.hpp:570-575),
for one node. -/
structure Node (K V : Type) where
  kin : Kin K V
  wave : Kin K V

/-- What `Waves::addLine` and its siblings create, source/Waves.hpp:584-594. -/
def Node.fresh : Node K V := ⟨⟨0, 0, 0, 0⟩, ⟨0, 0, 0, 0⟩⟩

/-- `Waves::setWaveKinematics` on one node, source/Waves.cpp:686-694: written in `waveKin`
if there is an internal current, in `nodeKin` otherwise. -/
def Node.setExternal (hasCurrent : Bool) (u ud : V) (n : Node K V) : Node K V :=
  if hasCurrent then { n with wave := { n.wave with vel := u, acc := ud } }
  else { n with kin := { n.kin with vel := u, acc := ud } }

/-- `Waves::updateWaves` on one node, source/Waves.cpp:751-870. -/
def Node.update (external : Bool) (wave : Option (Pos K → Kin K V))
    (current : Option (Pos K → V × V)) (p : Pos K) (n : Node K V) : Node K V :=
  match external, wave, current with
  | true, _, some c =>
    { n with kin := { n.kin with vel := n.wave.vel + (c p).1, acc := n.wave.acc + (c p).2 } }
  | _, some w, some c =>
    let k := w p
    { n with kin := ⟨k.zeta, k.vel + (c p).1, k.acc + (c p).2, k.pdyn⟩ }
  | _, some w, none => { n with kin := w p }
  | _, none, some c => { n with kin := { n.kin with vel := (c p).1, acc := (c p).2 } }
  | _, none, none => n

/-! ## Unification of the current grid with the wave grid -/

/-- `f i j k w` for each entry of a four-dimensional array -/
def map4 {A B : Type} (f : ℕ → ℕ → ℕ → ℕ → A → B) (v : List (List (List (List A)))) :
    List (List (List (List B))) :=
  v.mapIdx fun i a => a.mapIdx fun j b => b.mapIdx fun k c => c.mapIdx fun w e => f i j k w e

/-- Steady profiles, source/Waves.cpp:388-412: the current at `(0, 0, pz[iz])` and time zero
is added to velocity and acceleration.  `c` is what `getCurrentKin` answers. -/
def unifySteady (c : K → K → K → K → V × V) (g : WaveGrid K V) : WaveGrid K V :=
  { g with
    vel := map4 (fun _ _ k _ v => v + (c 0 0 (g.pz.getD k 0) 0).1) g.vel
    acc := map4 (fun _ _ k _ a => a + (c 0 0 (g.pz.getD k 0) 0).2) g.acc }

/-- Time dependent profiles, source/Waves.cpp:413-438: line 431 adds the acceleration of the
current to the velocity of the grid. -/
def unifyDynamic (c : K → K → K → K → V × V) (g : WaveGrid K V) : WaveGrid K V :=
  { g with
    vel := map4 (fun _ _ k w v => v + (c 0 0 (g.pz.getD k 0) (w * g.dt)).1 +
      (c 0 0 (g.pz.getD k 0) (w * g.dt)).2) g.vel }

/-- Gridded currents, source/Waves.cpp:439-479. -/
def unify4D (c : K → K → K → K → V × V) (g : WaveGrid K V) : WaveGrid K V :=
  { g with
    vel := map4 (fun i j k w v =>
      v + (c (g.px.getD i 0) (g.py.getD j 0) (g.pz.getD k 0) (w * g.dt)).1) g.vel
    acc := map4 (fun i j k w a =>
      a + (c (g.px.getD i 0) (g.py.getD j 0) (g.pz.getD k 0) (w * g.dt)).2) g.acc }

/-! ## External kinematics -/

/-- A value for each node of each line, rod, point and body, by kind, identifier and node
number: `NodeKinematics::U` etc., source/Waves.hpp.  Points and bodies have one node. -/
structure All (X : Type) where
  lines : List (List X)
  rods : List (List X)
  points : List (List X)
  bodies : List (List X)

/-- Positions visited by `kinematicsForAllNodes`, source/Waves.cpp:698-749, and pushed by
`getWaveKinematicsPoints`, 662-674. -/
def All.visit {X : Type} (a : All X) : List X :=
  a.lines.flatten ++ (a.rods.flatten ++ (a.points.flatten ++ a.bodies.flatten))

/-- One object in `setWaveKinematics`, source/Waves.cpp:687-696: new values of the nodes,
input left, and whether the input was enough; when it is not the function throws and the
remaining nodes keep their values. -/
def fillRow {X : Type} : List X → List X → List X × List X × Bool
  | [], inp => ([], inp, true)
  | x :: xs, [] => (x :: xs, [], false)
  | _ :: xs, u :: us =>
    let r := fillRow xs us
    (u :: r.1, r.2.1, r.2.2)

/-- All the objects of one kind. -/
def fillRows {X : Type} : List (List X) → List X → List (List X) × List X × Bool
  | [], inp => ([], inp, true)
  | r :: rs, inp =>
    let a := fillRow r inp
    if a.2.2 then
      let b := fillRows rs a.2.1
      (a.1 :: b.1, b.2.1, b.2.2)
    else (a.1 :: rs, a.2.1, false)

/-- Outcome of `setWaveKinematics`: the exceptions it throws are told apart. -/
inductive SetResult
  | ok
  | sizesDiffer
  | notEnough
deriving DecidableEq

/-- `Waves::setWaveKinematics`, source/Waves.cpp:677-697; a node holds velocity and
acceleration. -/
def setAll (k : All (V × V)) (u ud : List V) : All (V × V) × SetResult :=
  if u.length ≠ ud.length then (k, .sizesDiffer)
  else
    let inp := u.zip ud
    let l := fillRows k.lines inp
    if !l.2.2 then ({ k with lines := l.1 }, .notEnough)
    else
      let r := fillRows k.rods l.2.1
      if !r.2.2 then ({ k with lines := l.1, rods := r.1 }, .notEnough)
      else
        let p := fillRows k.points r.2.1
        if !p.2.2 then ({ k with lines := l.1, rods := r.1, points := p.1 }, .notEnough)
        else
          let b := fillRows k.bodies p.2.1
          (⟨l.1, r.1, p.1, b.1⟩, if b.2.2 then .ok else .notEnough)

/-- What `MoorDyn_ExternalWaveKinGetCoordinates` writes, source/MoorDyn2.cpp:2476-2490, for positions with three coordinates. -/
def writeCoordinates {X : Type} (pos : All (Fin 3 → X)) : List X :=
  pos.visit.flatMap fun v => [v 0, v 1, v 2]

/-- The loop of `MoorDyn_ExternalWaveKinSet` over one of its arrays, source/MoorDyn2.cpp:2510-2513; `none` if it reads beyond the array. -/
def readTriples {X : Type} (n : ℕ) (U : List X) : Option (List (Fin 3 → X)) :=
  (List.range n).mapM fun i => do
    let a ← U[3 * i]?
    let b ← U[3 * i + 1]?
    let c ← U[3 * i + 2]?
    pure ![a, b, c]

/-- How `MoorDyn_ExternalWaveKinSet` ends: with an error code, by an exception that nothing catches, or it reads beyond an array. -/
inductive CallEnd
  | code (n : ℤ)
  | exception
  | undefined
deriving DecidableEq

/-- `MoorDyn_ExternalWaveKinSet`, source/MoorDyn2.cpp:2492-2517; `npW` is the number that `MoorDyn_ExternalWaveKinInit` has stored, 0 before
(source/MoorDyn2.hpp:178-194, source/MoorDyn2.cpp:100).  `MOORDYN_INVALID_VALUE` is -6 (source/MoorDynAPI.h:155). -/
def externalSet {X : Type} (npW : ℕ) (k : All ((Fin 3 → X) × (Fin 3 → X))) (U Ud : List X) :
    All ((Fin 3 → X) × (Fin 3 → X)) × CallEnd :=
  if npW = 0 then (k, .code (-6))
  else match readTriples npW U, readTriples npW Ud with
    | some u, some ud =>
      match setAll k u ud with
      | (k', .ok) => (k', .code 0)
      | (k', _) => (k', .exception)
    | _, _ => (k, .undefined)

/-! ## Grid axes and spectrum resampling -/

/-- The lattice axis of `gridAxisCoords`, source/Waves.cpp:91-98, for a count `n`;
`n - 1` is computed in 32 bit unsigned arithmetic and `dx` is `none` when it divides by
zero (the loop is then empty). -/
def lattice (first last : K) (n : ℕ) : List K :=
  let m := if n = 0 then 2 ^ 32 - 1 else n - 1
  let dx := (last - first) / (m : K)
  first :: ((List.range' 1 (m - 1)).map (fun (i : ℕ) => first + (i : K) * dx) ++ [last])

/-- A frequency component: frequency and (complex amplitude, direction). -/
structure Comp (K V : Type) where
  omega : K
  amp : V
  beta : K

/-- Smallest spacing, source/Waves/WaveSpectrum.cpp:35-40; `none` is infinity. -/
def minDiff : List K → Option K
  | a :: b :: l =>
    match minDiff (b :: l) with
    | none => some (b - a)
    | some d => some (min (b - a) d)
  | _ => none

/-- The loop of `interpEvenlySpaced`, source/Waves/WaveSpectrum.cpp:60-67, for the indices
`is`, with `j` the last index found. -/
def resampleLoop (omegas : List K) (amps : List V) (betas : List K) (dw : K) :
    ℕ → List ℕ → Option (List (Comp K V))
  | _, [] => some []
  | j, i :: is => do
    let (j, f) ← interpFactor omegas j ((i : K) * dw)
    if j = 0 then none
    let a0 ← amps[j - 1]?
    let a1 ← amps[j]?
    let b0 ← betas[j - 1]?
    let b1 ← betas[j]?
    let r ← resampleLoop omegas amps betas dw j is
    return ⟨(i : K) * dw, lerp a0 a1 f, (1 - f) * b0 + f * b1⟩ :: r

/-- Outcomes of `interpEvenlySpaced`. -/
inductive Resampled (K V : Type)
  | rejected
  | undefined
  | ok (l : List (Comp K V))

/-- `DiscreteWaveSpectrum::interpEvenlySpaced`, source/Waves/WaveSpectrum.cpp:32-69.  With a
single component the spacing is infinite, `floor(omega / inf) + 1 = 1` and the only
evaluation frequency is `0 * inf`, a NaN, so this and the empty spectrum are `undefined`. -/
def resample (cs : List (Comp K V)) : Resampled K V :=
  match minDiff (cs.map (·.omega)), (cs.map (·.omega)).getLast? with
  | some dw, some w =>
    if dw ≤ 0 then .rejected
    else if w / dw < 0 then .undefined
    else
      match resampleLoop (cs.map (·.omega)) (cs.map (·.amp)) (cs.map (·.beta)) dw 1
        (List.range (⌊w / dw⌋₊ + 1)) with
      | some l => .ok l
      | none => .undefined
  | _, _ => .undefined

/-! ## Gridded current files -/

/-- `std::map` from the text of each tick of an axis to its index, filled by
`XMap[entry[i]] = i` and read with `operator[]`, which answers zero for unknown keys:
source/Waves/WaveGrid.cpp:781-809 and 834-837. -/
def axisIndex {S : Type} [DecidableEq S] (axis : List S) (s : S) : ℕ :=
  axis.zipIdx.foldl (fun m p => if p.1 = s then p.2 else m) 0

/-- One row of the file: the text of its coordinates and the velocity. -/
structure Row4 (S V : Type) where
  x : S
  y : S
  z : S
  t : S
  u : V

/-- A four-dimensional array of the size of the axes, zero at first
(`init4DArray`). -/
abbrev Grid4 (V : Type) := ℕ → ℕ → ℕ → ℕ → V

/-- The assignment of one row, source/Waves/WaveGrid.cpp:831-844. -/
def setRow {S : Type} [DecidableEq S] (xs ys zs ts : List S) (g : Grid4 V) (r : Row4 S V) :
    Grid4 V :=
  fun i j k w =>
    if i = axisIndex xs r.x ∧ j = axisIndex ys r.y ∧ k = axisIndex zs r.z ∧ w = axisIndex ts r.t
    then r.u else g i j k w

/-- `construct4DCurrentGrid`, source/Waves/WaveGrid.cpp:757-844, up to the four-dimensional
arrays: `rows` are the lines of the file after the first five (number of ticks and four
axes).  The number of lines is checked against the number of grid points plus five, and
the reading starts at line index six.  `none` is the exception. -/
def load4D {S : Type} [DecidableEq S] (xs ys zs ts : List S) (rows : List (Row4 S V)) :
    Option (Grid4 V) :=
  if rows.length + 5 < 7 then none
  else if rows.length + 5 < xs.length * ys.length * zs.length * ts.length + 5 then none
  else some ((rows.drop 1).foldl (setRow xs ys zs ts) (fun _ _ _ _ => 0))

end MD.Waves
