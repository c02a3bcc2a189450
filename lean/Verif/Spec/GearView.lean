import Verif.Model.Gear
import Verif.Spec.Similar
import Verif.Props.FrameMotion

/-!
# A system with the formulas of the code, seen from other axes
-/

namespace MD.Whole

open MD.Mooring Matrix MD.Mat MD.Rot MD.Frame

/-- The product of quaternions with `p` on the left: first the rotation of the other, then that of `p`. -/
noncomputable def after (p : Quat ℝ) : Quat ℝ →ₗ[ℝ] Quat ℝ where
  toFun q := p.mul q
  map_add' a b := by
    show p.mul (a.add b) = (p.mul a).add (p.mul b)
    simp only [Quat.mul, Quat.add, Quat.mk.injEq]
    refine ⟨?_, ?_, ?_, ?_⟩ <;> ring
  map_smul' c a := by
    show p.mul (a.smul c) = (p.mul a).smul c
    simp only [Quat.mul, Quat.smul, Quat.mk.injEq]
    refine ⟨?_, ?_, ?_, ?_⟩ <;> ring

/-- The water. -/
def waterSeen (o : Turn) (w : Water) : Water := (w.1, o.Q *ᵥ w.2.1, o.Q *ᵥ w.2.2.1, w.2.2.2)

/-- All is seen from axes turned by `o` about the vertical, which `p` does to quaternions, and with the origin moved by `d`.  The attitudes for
which the formulas do not depend on the axes are all but the quaternion 0; the rods are vertical, or lean by more than the angle below which
their heading is ignored.  If the axes are not turned there is no exception. -/
noncomputable def seenFrom (o : Turn) (d : V) (p : Quat ℝ) :
    View (Quat ℝ) LineOut (Option Bodies.Point) RodOut (Option (V × V × M6 ℝ)) Water where
  len := 1
  tim := 1
  R := o.Q
  shift := d
  turn := after p
  own _ := 1
  turnB _ := after p
  line F := ⟨fun e => (F.stuff e).map (stuff o), F.curv⟩
  point F := F.map (point o d)
  rod F := ⟨F.N, o.Q *ᵥ F.rA + d, fun x w => (F.about (back o d x) (o.Qᵀ *ᵥ w)).map (Frame.load o)⟩
  body F := F.map (Frame.load o)
  water := waterSeen o
  mom := 1
  ok q := p = Quat.one ∨ 0 < q.normSq
  fit a := p = Quat.one ∨ Leans a

/-- The same points, rods, bodies and lines in the same sea.  Of what is attached to the ground the place is given, and the direction; of points
the force that always acts on them; and the bottom and the water are the same at the same places. -/
noncomputable def Gear.seenFrom (o : Turn) (d : V) (G : Gear) : Gear :=
  { G with
    pts := fun b => match b with
      | none => (G.pts none).map fun a => (a.1, o.Q *ᵥ a.2 + d)
      | some b => G.pts (some b)
    rods := fun b => match b with
      | none => (G.rods none).map fun a => (a.1, o.Q *ᵥ a.2.1 + d, o.Q *ᵥ a.2.2)
      | some b => G.rods (some b)
    point := fun i => { G.point i with pointF := o.Q *ᵥ (G.point i).pointF }
    env := { G.env with waterDepth := fun x y => G.env.waterDepth (back o d ![x, y, 0] 0) (back o d ![x, y, 0] 1) }
    kin := fun t x => waterSeen o (G.kin t (back o d x)) }

/-- What is needed of the rods if the axes are turned: they have a length; the axes of those that are fixed to bodies, or to the ground, are of
length one; and the half turn that Eigen finds for vectors that point opposite ways takes one to the other. -/
structure Gear.Rigged (G : Gear) : Prop where
  long : ∀ i < G.nr, (G.rod i).N ≠ 0
  axes : ∀ b, ∀ a ∈ G.rods b, G.rkind a.1 = .FIXED → G.q0 a.1 ⬝ᵥ G.q0 a.1 = 1 ∧ a.2.2 ⬝ᵥ a.2.2 = 1
  half : ∀ b, ∀ a ∈ G.rods b, G.rkind a.1 = .FIXED → ∀ v, v ⬝ᵥ v = 1 → Rods.fromTwoVectors (G.q0 a.1) v = none →
    orMat (G.half (G.q0 a.1) v) *ᵥ G.q0 a.1 = v

/-- The axes of rods that are fixed to bodies, or to the ground, are of length one, and the half turn that Eigen finds for vectors that point
opposite ways takes one to the other. -/
structure Gear.Trimmed (G : Gear) : Prop where
  axes : ∀ b, ∀ a ∈ G.rods b, G.rkind a.1 = .FIXED → G.q0 a.1 ⬝ᵥ G.q0 a.1 = 1 ∧ a.2.2 ⬝ᵥ a.2.2 = 1
  half : ∀ u v : V, u ⬝ᵥ u = 1 → v ⬝ᵥ v = 1 → Rods.fromTwoVectors u v = none → orMat (G.half u v) *ᵥ u = v

/-- The quaternion of a turn by an angle about the vertical. -/
noncomputable def yaw (θ : ℝ) : Quat ℝ := ⟨Real.cos (θ / 2), 0, 0, Real.sin (θ / 2)⟩

/-- A turn by an angle about the vertical, and another origin. -/
noncomputable abbrev turnedBy (θ : ℝ) (d : V) : View (Quat ℝ) LineOut (Option Bodies.Point) RodOut (Option (V × V × M6 ℝ)) Water :=
  MD.Whole.seenFrom (byAngle θ) d (yaw θ)

/-- Place and angles of a level object. -/
noncomputable def poseTurned (θ : ℝ) (d : V) (x : V × V) : V × V := ((byAngle θ).Q *ᵥ x.1 + d, x.2 + ![0, 0, θ])

/-- Velocity and rate of rotation, or accelerations. -/
noncomputable def ratesTurned (θ : ℝ) (x : V × V) : V × V := ((byAngle θ).Q *ᵥ x.1, (byAngle θ).Q *ᵥ x.2)

/-- What is asked for in a call. -/
noncomputable def Asked.turnedBy (θ : ℝ) (d : V) (x : Asked) : Asked where
  body b := (poseTurned θ d (x.body b).1, ratesTurned θ (x.body b).2)
  rod i := (poseTurned θ d (x.rod i).1, ratesTurned θ (x.rod i).2)
  point i := ((byAngle θ).Q *ᵥ (x.point i).1 + d, (byAngle θ).Q *ᵥ (x.point i).2)
  dt := x.dt

/-- What was asked for, as it is stored. -/
noncomputable def vesTurned (θ : ℝ) (d : V) (v : (V × V) × (V × V) × (V × V)) : (V × V) × (V × V) × (V × V) :=
  (poseTurned θ d v.1, ratesTurned θ v.2.1, ratesTurned θ v.2.2)

/-- Roll and pitch are zero, and rotation is about the vertical: angles about the three axes cannot be turned by adding to them otherwise. -/
def Level (x : (V × V) × (V × V)) : Prop := x.1.2 0 = 0 ∧ x.1.2 1 = 0 ∧ x.2.2 0 = 0 ∧ x.2.2 1 = 0

/-- The state. -/
noncomputable def stateTurned (θ : ℝ) (d : V) (e : State (Quat ℝ)) : State (Quat ℝ) :=
  (fun k j => ((byAngle θ).Q *ᵥ (e.1 k j).1 + d, (byAngle θ).Q *ᵥ (e.1 k j).2),
    fun i => ((byAngle θ).Q *ᵥ (e.2.1 i).1 + d, (byAngle θ).Q *ᵥ (e.2.1 i).2),
    fun i => (((byAngle θ).Q *ᵥ (e.2.2.1 i).1.1 + d, (yaw θ).mul (e.2.2.1 i).1.2), ratesTurned θ (e.2.2.1 i).2),
    fun b => (((byAngle θ).Q *ᵥ (e.2.2.2 b).1.1 + d, (yaw θ).mul (e.2.2.2 b).1.2), ratesTurned θ (e.2.2.2 b).2))

/-- The rates of a state. -/
noncomputable def derivTurned (θ : ℝ) (e : State (Quat ℝ)) : State (Quat ℝ) :=
  (fun k j => ratesTurned θ (e.1 k j), fun i => ratesTurned θ (e.2.1 i),
    fun i => (((byAngle θ).Q *ᵥ (e.2.2.1 i).1.1, (yaw θ).mul (e.2.2.1 i).1.2), ratesTurned θ (e.2.2.1 i).2),
    fun b => (((byAngle θ).Q *ᵥ (e.2.2.2 b).1.1, (yaw θ).mul (e.2.2.2 b).1.2), ratesTurned θ (e.2.2.2 b).2))

/-- What is stored. -/
abbrev GearMem := Mem (Quat ℝ) LineOut (Option Bodies.Point) RodOut (Option (V × V × M6 ℝ))

/-- What is stored in the objects; of the ground nothing changes. -/
noncomputable def memTurned (θ : ℝ) (d : V) (m : GearMem) : GearMem where
  t := m.t
  line k := ⟨(turnedBy θ d).shape (m.line k).s, (turnedBy θ d).line (m.line k).F⟩
  point i := ⟨(byAngle θ).Q *ᵥ (m.point i).r + d, (byAngle θ).Q *ᵥ (m.point i).rd,
    ((byAngle θ).Q *ᵥ (m.point i).ves.1 + d, (byAngle θ).Q *ᵥ (m.point i).ves.2), (m.point i).F.map (point (byAngle θ) d)⟩
  rod i := ⟨(byAngle θ).Q *ᵥ (m.rod i).pos + d, (yaw θ).mul (m.rod i).quat, (byAngle θ).Q *ᵥ (m.rod i).vel, (byAngle θ).Q *ᵥ (m.rod i).w,
    (byAngle θ).Q *ᵥ (m.rod i).q, fun j => (byAngle θ).Q *ᵥ (m.rod i).r j + d, fun j => (byAngle θ).Q *ᵥ (m.rod i).rd j,
    ratesTurned θ (m.rod i).acc, vesTurned θ d (m.rod i).ves, (turnedBy θ d).rod (m.rod i).F⟩
  body b := ⟨(byAngle θ).Q *ᵥ (m.body b).pos + d, (yaw θ).mul (m.body b).quat, (byAngle θ).Q *ᵥ (m.body b).vel, (byAngle θ).Q *ᵥ (m.body b).w,
    (byAngle θ).Q * (m.body b).orMat, ratesTurned θ (m.body b).acc, vesTurned θ d (m.body b).ves, (m.body b).F.map (Frame.load (byAngle θ))⟩
  ground := m.ground

/-- A moment of a simulation. -/
noncomputable def simTurned (θ : ℝ) (d : V) (s : Time.Sim ℝ (State (Quat ℝ)) GearMem) : Time.Sim ℝ (State (Quat ℝ)) GearMem :=
  ⟨s.t, s.tl, fun k => stateTurned θ d (s.r k), fun k => derivTurned θ (s.rd k), s.n, memTurned θ d s.m⟩

/-- The ground has not been moved, the rods have attitudes, and coupled bodies and rods are level. -/
structure Gear.Upright (G : Gear) (m : GearMem) : Prop where
  ground : IsGround m.ground
  rods : ∀ i, 0 < (m.rod i).quat.normSq
  body : ∀ b, G.bkind b = .COUPLED → Level ((m.body b).ves.1, (m.body b).ves.2.1)
  rod : ∀ i, G.rkind i = .COUPLED → Level ((m.rod i).ves.1, (m.rod i).ves.2.1)

/-- The axes are not turned. -/
def ahead : Turn where
  Q := 1
  orth := by rw [mul_one, transpose_one]
  up := one_mulVec _

/-- Another origin. -/
noncomputable abbrev movedBy (d : V) : View (Quat ℝ) LineOut (Option Bodies.Point) RodOut (Option (V × V × M6 ℝ)) Water :=
  MD.Whole.seenFrom ahead d Quat.one

/-- What is asked for in a call. -/
def Asked.movedBy (d : V) (x : Asked) : Asked where
  body b := (((x.body b).1.1 + d, (x.body b).1.2), (x.body b).2)
  rod i := (((x.rod i).1.1 + d, (x.rod i).1.2), (x.rod i).2)
  point i := ((x.point i).1 + d, (x.point i).2)
  dt := x.dt

/-- The state. -/
def stateMoved (d : V) (e : State (Quat ℝ)) : State (Quat ℝ) :=
  (fun k j => ((e.1 k j).1 + d, (e.1 k j).2), fun i => ((e.2.1 i).1 + d, (e.2.1 i).2),
    fun i => (((e.2.2.1 i).1.1 + d, (e.2.2.1 i).1.2), (e.2.2.1 i).2), fun b => (((e.2.2.2 b).1.1 + d, (e.2.2.2 b).1.2), (e.2.2.2 b).2))

/-- What is stored in the objects; of the ground nothing changes. -/
noncomputable def memMoved (d : V) (m : GearMem) : GearMem where
  t := m.t
  line k := { m.line k with s := { (m.line k).s with r := fun j => (m.line k).s.r j + d } }
  point i := { m.point i with r := (m.point i).r + d, ves := ((m.point i).ves.1 + d, (m.point i).ves.2), F := (m.point i).F.map fun p => { p with r := p.r + d } }
  rod i := { m.rod i with
    pos := (m.rod i).pos + d
    r := fun j => (m.rod i).r j + d
    ves := (((m.rod i).ves.1.1 + d, (m.rod i).ves.1.2), (m.rod i).ves.2)
    F := ⟨(m.rod i).F.N, (m.rod i).F.rA + d, fun x w => (m.rod i).F.about (x - d) w⟩ }
  body b := { m.body b with pos := (m.body b).pos + d, ves := (((m.body b).ves.1.1 + d, (m.body b).ves.1.2), (m.body b).ves.2) }
  ground := m.ground

/-- A moment of a simulation. -/
noncomputable def simMoved (d : V) (s : Time.Sim ℝ (State (Quat ℝ)) GearMem) : Time.Sim ℝ (State (Quat ℝ)) GearMem :=
  ⟨s.t, s.tl, fun k => stateMoved d (s.r k), s.rd, s.n, memMoved d s.m⟩

end MD.Whole
