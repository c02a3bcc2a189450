import Verif.Spec.GearView
import Verif.Spec.GearPart

/-!
# Systems in a mirror

The mirror is an upright plane along the x axis.  Angular velocities and moments change their sign against vectors, in a mirror.
-/

namespace MD.Frame

open Matrix MD.Mat MD.Mooring

variable (o : Turn)

/-- An angular velocity or a moment. -/
noncomputable def axialV (w : V) : V := o.Q.det • (o.Q *ᵥ w)

/-- A mass matrix of forces and moments. -/
noncomputable def massS (M : M6 ℝ) : M6 ℝ := fromBlocks o.Q 0 0 (o.Q.det • o.Q) * M * (fromBlocks o.Q 0 0 (o.Q.det • o.Q))ᵀ

/-- Force, moment and mass matrix. -/
noncomputable def loadS (x : V × V × M6 ℝ) : V × V × M6 ℝ := (o.Q *ᵥ x.1, axialV o x.2.1, massS o x.2.2)

end MD.Frame

namespace MD.Whole

open MD.Mooring Matrix MD.Mat MD.Rot MD.Frame

/-- The attitude in the mirror: rotations about the x and z axes go the other way. -/
def flip : Quat ℝ →ₗ[ℝ] Quat ℝ where
  toFun q := ⟨q.w, -q.x, q.y, -q.z⟩
  map_add' a b := by
    show (⟨(a.add b).w, -(a.add b).x, (a.add b).y, -(a.add b).z⟩ : Quat ℝ) = (⟨a.w, -a.x, a.y, -a.z⟩ : Quat ℝ).add ⟨b.w, -b.x, b.y, -b.z⟩
    simp only [Quat.add, Quat.mk.injEq]
    refine ⟨?_, ?_, ?_, ?_⟩ <;> first | trivial | ring
  map_smul' c a := by
    show (⟨(a.smul c).w, -(a.smul c).x, (a.smul c).y, -(a.smul c).z⟩ : Quat ℝ) = (⟨a.w, -a.x, a.y, -a.z⟩ : Quat ℝ).smul c
    simp only [Quat.smul, Quat.mk.injEq]
    refine ⟨?_, ?_, ?_, ?_⟩ <;> first | trivial | ring

/-- All is seen in the mirror, bodies are described in their own axes as the mirror shows them, and the origin is moved by `d`. -/
noncomputable def inMirror (d : V) : View (Quat ℝ) LineOut (Option Bodies.Point) RodOut (Option (V × V × M6 ℝ)) Water where
  len := 1
  tim := 1
  R := mirror.Q
  sgn := -1
  shift := d
  turn := flip
  own _ := mirror.Q
  turnB _ := flip
  line F := ⟨fun e => (F.stuff e).map (stuff mirror), F.curv⟩
  point F := F.map (point mirror d)
  rod F := ⟨F.N, mirror.Q *ᵥ F.rA + d, fun x w => (F.about (back mirror d x) (axialV mirror w)).map (loadS mirror)⟩
  body F := F.map (loadS mirror)
  water := waterSeen mirror
  mom := 1

/-- The system in the mirror: places, axes and directions of what is attached to the ground or to bodies, centres of gravity of bodies, forces
that always act on points, the first directions of the rods, the bottom and the water. -/
noncomputable def Gear.mirrored (d : V) (G : Gear) : Gear :=
  { G.seenFrom mirror d with
    pts := fun b => match b with
      | none => (G.pts none).map fun a => (a.1, mirror.Q *ᵥ a.2 + d)
      | some b => (G.pts (some b)).map fun a => (a.1, mirror.Q *ᵥ a.2)
    rods := fun b => match b with
      | none => (G.rods none).map fun a => (a.1, mirror.Q *ᵥ a.2.1 + d, mirror.Q *ᵥ a.2.2)
      | some b => (G.rods (some b)).map fun a => (a.1, mirror.Q *ᵥ a.2.1, mirror.Q *ᵥ a.2.2)
    q0 := fun i => mirror.Q *ᵥ G.q0 i
    body := fun b => { G.body b with body_rCG := mirror.Q *ᵥ (G.body b).body_rCG } }

/-- Place and angles. -/
noncomputable def poseMirrored (d : V) (x : V × V) : V × V := (mirror.Q *ᵥ x.1 + d, -(mirror.Q *ᵥ x.2))

/-- Velocity and rate of rotation, or accelerations. -/
noncomputable def ratesMirrored (x : V × V) : V × V := (mirror.Q *ᵥ x.1, -(mirror.Q *ᵥ x.2))

/-- What is asked for in a call. -/
noncomputable def Asked.mirrored (d : V) (x : Asked) : Asked where
  body b := (poseMirrored d (x.body b).1, ratesMirrored (x.body b).2)
  rod i := (poseMirrored d (x.rod i).1, ratesMirrored (x.rod i).2)
  point i := (mirror.Q *ᵥ (x.point i).1 + d, mirror.Q *ᵥ (x.point i).2)
  dt := x.dt

/-- The state. -/
noncomputable def stateMirrored (d : V) (e : State (Quat ℝ)) : State (Quat ℝ) :=
  (fun k j => (mirror.Q *ᵥ (e.1 k j).1 + d, mirror.Q *ᵥ (e.1 k j).2),
    fun i => (mirror.Q *ᵥ (e.2.1 i).1 + d, mirror.Q *ᵥ (e.2.1 i).2),
    fun i => ((mirror.Q *ᵥ (e.2.2.1 i).1.1 + d, flip (e.2.2.1 i).1.2), ratesMirrored (e.2.2.1 i).2),
    fun b => ((mirror.Q *ᵥ (e.2.2.2 b).1.1 + d, flip (e.2.2.2 b).1.2), ratesMirrored (e.2.2.2 b).2))

/-- The rates. -/
noncomputable def derivMirrored (e : State (Quat ℝ)) : State (Quat ℝ) :=
  (fun k j => (mirror.Q *ᵥ (e.1 k j).1, mirror.Q *ᵥ (e.1 k j).2), fun i => (mirror.Q *ᵥ (e.2.1 i).1, mirror.Q *ᵥ (e.2.1 i).2),
    fun i => ((mirror.Q *ᵥ (e.2.2.1 i).1.1, flip (e.2.2.1 i).1.2), ratesMirrored (e.2.2.1 i).2),
    fun b => ((mirror.Q *ᵥ (e.2.2.2 b).1.1, flip (e.2.2.2 b).1.2), ratesMirrored (e.2.2.2 b).2))

/-- What is stored in the objects; of the ground nothing changes. -/
noncomputable def memMirrored (d : V) (m : GearMem) : GearMem where
  t := m.t
  line k := ⟨(inMirror d).shape (m.line k).s, (inMirror d).line (m.line k).F⟩
  point i := ⟨mirror.Q *ᵥ (m.point i).r + d, mirror.Q *ᵥ (m.point i).rd,
    (mirror.Q *ᵥ (m.point i).ves.1 + d, mirror.Q *ᵥ (m.point i).ves.2), (m.point i).F.map (point mirror d)⟩
  rod i := ⟨mirror.Q *ᵥ (m.rod i).pos + d, flip (m.rod i).quat, mirror.Q *ᵥ (m.rod i).vel, -(mirror.Q *ᵥ (m.rod i).w),
    mirror.Q *ᵥ (m.rod i).q, fun j => mirror.Q *ᵥ (m.rod i).r j + d, fun j => mirror.Q *ᵥ (m.rod i).rd j,
    ratesMirrored (m.rod i).acc, (poseMirrored d (m.rod i).ves.1, ratesMirrored (m.rod i).ves.2.1, ratesMirrored (m.rod i).ves.2.2),
    (inMirror d).rod (m.rod i).F⟩
  body b := ⟨mirror.Q *ᵥ (m.body b).pos + d, flip (m.body b).quat, mirror.Q *ᵥ (m.body b).vel, -(mirror.Q *ᵥ (m.body b).w),
    mirror.Q * (m.body b).orMat * mirror.Qᵀ, ratesMirrored (m.body b).acc,
    (poseMirrored d (m.body b).ves.1, ratesMirrored (m.body b).ves.2.1, ratesMirrored (m.body b).ves.2.2), (m.body b).F.map (loadS mirror)⟩
  ground := m.ground

/-- A moment of a simulation. -/
noncomputable def simMirrored (d : V) (s : Time.Sim ℝ (State (Quat ℝ)) GearMem) : Time.Sim ℝ (State (Quat ℝ)) GearMem :=
  ⟨s.t, s.tl, fun k => stateMirrored d (s.r k), fun k => derivMirrored (s.rd k), s.n, memMirrored d s.m⟩

/-- The two sides of the system are mirror images of each other, each object being the image of its counterpart `β`: in the mirror the bodies,
rods, points and lines are those there are, under other numbers, and bottom and water are the same. -/
def Gear.TwoSided (d : V) (β : Names) (G : Gear) : Prop := Gear.Part β G (G.mirrored d)

/-- At this moment of the simulation each object is where the image of its counterpart is, and moves likewise. -/
def Gear.TwoSidedSim (d : V) (β : Names) (G : Gear) (s : Time.Sim ℝ (State (Quat ℝ)) GearMem) : Prop :=
  ∃ s', ViewSim (inMirror d) G.code (G.mirrored d).code s s' ∧ SameSim β (G.mirrored d).code s s'

/-- What is asked for is symmetric. -/
structure Gear.TwoSidedAsked (d : V) (β : Names) (G : Gear) (x : Asked) : Prop where
  body : ∀ b < G.nb, x.body (β.body b) =
    ((mirror.Q *ᵥ (x.body b).1.1 + d, -(mirror.Q *ᵥ (x.body b).1.2)), mirror.Q *ᵥ (x.body b).2.1, -(mirror.Q *ᵥ (x.body b).2.2))
  rod : ∀ i < G.nr, x.rod (β.rod i) =
    ((mirror.Q *ᵥ (x.rod i).1.1 + d, -(mirror.Q *ᵥ (x.rod i).1.2)), mirror.Q *ᵥ (x.rod i).2.1, -(mirror.Q *ᵥ (x.rod i).2.2))
  point : ∀ i < G.np, x.point (β.point i) = (mirror.Q *ᵥ (x.point i).1 + d, mirror.Q *ᵥ (x.point i).2)

end MD.Whole
