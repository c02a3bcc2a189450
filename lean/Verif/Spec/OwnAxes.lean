import Verif.Spec.GearView
import Verif.Spec.GearPart

/-!
# Bodies described in other axes of their own, and symmetric systems
-/

namespace MD.Whole

open MD.Mooring Matrix MD.Mat MD.Rot MD.Frame

/-- The product of quaternions with `u` on the right: first the rotation of `u`, then that of the other. -/
noncomputable def before (u : Quat ℝ) : Quat ℝ →ₗ[ℝ] Quat ℝ where
  toFun q := q.mul u
  map_add' a b := by
    show (a.add b).mul u = (a.mul u).add (b.mul u)
    simp only [Quat.mul, Quat.add, Quat.mk.injEq]
    refine ⟨?_, ?_, ?_, ?_⟩ <;> ring
  map_smul' c a := by
    show (a.smul c).mul u = (a.mul u).smul c
    simp only [Quat.mul, Quat.smul, Quat.mk.injEq]
    refine ⟨?_, ?_, ?_, ?_⟩ <;> ring

/-- The same bodies, described in axes of their own that are turned by the angle `h b` about the vertical of the body: what is on body `b`, and
its centre of gravity, have other coordinates.  The coefficients, of which there is one for each axis, stay as they are. -/
noncomputable def Gear.reaxed (h : ℕ → ℝ) (G : Gear) : Gear :=
  { G with
    pts := fun b => match b with
      | none => G.pts none
      | some b => (G.pts (some b)).map fun a => (a.1, (byAngle (h b)).Q *ᵥ a.2)
    rods := fun b => match b with
      | none => G.rods none
      | some b => (G.rods (some b)).map fun a => (a.1, (byAngle (h b)).Q *ᵥ a.2.1, (byAngle (h b)).Q *ᵥ a.2.2)
    body := fun b => { G.body b with body_rCG := (byAngle (h b)).Q *ᵥ (G.body b).body_rCG } }

/-- Inertia, drag and added mass of a body are the same in both horizontal directions. -/
structure Round (B : Bodies.Body) : Prop where
  I : B.bodyI 0 = B.bodyI 1
  CdA : B.CdA 0 = B.CdA 1
  CdAr : B.CdAr 0 = B.CdAr 1
  Ca : B.Ca 0 = B.Ca 1
  Car : B.Car 0 = B.Car 1

/-- The system seen from axes turned by `θ` about the vertical and with another origin, each body `b` described in axes of its own that are turned
by `h b`, and the rods with first directions, against which their attitudes count, that are turned by `g`. -/
noncomputable def Gear.turned (θ : ℝ) (d : V) (h : ℕ → ℝ) (g : ℝ) (G : Gear) : Gear :=
  { (G.seenFrom (byAngle θ) d).reaxed h with q0 := fun i => (byAngle g).Q *ᵥ G.q0 i }

/-- What becomes of all quantities. -/
noncomputable def ownTurned (θ : ℝ) (d : V) (h : ℕ → ℝ) (g : ℝ) :
    View (Quat ℝ) LineOut (Option Bodies.Point) RodOut (Option (V × V × M6 ℝ)) Water :=
  { turnedBy θ d with
    turn := (after (yaw θ)).comp (before (yaw (-g)))
    own := fun b => (byAngle (h b)).Q
    turnB := fun b => (after (yaw θ)).comp (before (yaw (-h b)))
    ok := fun q => 0 < q.normSq }

/-- What is asked for in a call; headings of bodies and rods are those of their own axes. -/
noncomputable def Asked.turned (θ : ℝ) (d : V) (h : ℕ → ℝ) (g : ℝ) (x : Asked) : Asked where
  body b := ((((byAngle θ).Q *ᵥ (x.body b).1.1 + d), (x.body b).1.2 + ![0, 0, θ - h b]), ratesTurned θ (x.body b).2)
  rod i := ((((byAngle θ).Q *ᵥ (x.rod i).1.1 + d), (x.rod i).1.2 + ![0, 0, θ - g]), ratesTurned θ (x.rod i).2)
  point i := ((byAngle θ).Q *ᵥ (x.point i).1 + d, (byAngle θ).Q *ᵥ (x.point i).2)
  dt := x.dt

/-- The state. -/
noncomputable def ownState (θ : ℝ) (d : V) (h : ℕ → ℝ) (g : ℝ) (e : State (Quat ℝ)) : State (Quat ℝ) :=
  ((stateTurned θ d e).1, (stateTurned θ d e).2.1,
    fun i => (((byAngle θ).Q *ᵥ (e.2.2.1 i).1.1 + d, (yaw θ).mul ((e.2.2.1 i).1.2.mul (yaw (-g)))), ratesTurned θ (e.2.2.1 i).2),
    fun b => (((byAngle θ).Q *ᵥ (e.2.2.2 b).1.1 + d, (yaw θ).mul ((e.2.2.2 b).1.2.mul (yaw (-h b)))), ratesTurned θ (e.2.2.2 b).2))

/-- The rates. -/
noncomputable def ownDeriv (θ : ℝ) (h : ℕ → ℝ) (g : ℝ) (e : State (Quat ℝ)) : State (Quat ℝ) :=
  ((derivTurned θ e).1, (derivTurned θ e).2.1,
    fun i => (((byAngle θ).Q *ᵥ (e.2.2.1 i).1.1, (yaw θ).mul ((e.2.2.1 i).1.2.mul (yaw (-g)))), ratesTurned θ (e.2.2.1 i).2),
    fun b => (((byAngle θ).Q *ᵥ (e.2.2.2 b).1.1, (yaw θ).mul ((e.2.2.2 b).1.2.mul (yaw (-h b)))), ratesTurned θ (e.2.2.2 b).2))

/-- What is stored in the objects. -/
noncomputable def ownMem (θ : ℝ) (d : V) (h : ℕ → ℝ) (g : ℝ) (m : GearMem) : GearMem :=
  { memTurned θ d m with
    rod := fun i => { (memTurned θ d m).rod i with
      quat := (yaw θ).mul ((m.rod i).quat.mul (yaw (-g)))
      ves := (((byAngle θ).Q *ᵥ (m.rod i).ves.1.1 + d, (m.rod i).ves.1.2 + ![0, 0, θ - g]), ratesTurned θ (m.rod i).ves.2.1,
        ratesTurned θ (m.rod i).ves.2.2) }
    body := fun b => ⟨(byAngle θ).Q *ᵥ (m.body b).pos + d, (yaw θ).mul ((m.body b).quat.mul (yaw (-h b))), (byAngle θ).Q *ᵥ (m.body b).vel,
      (byAngle θ).Q *ᵥ (m.body b).w, (byAngle θ).Q * (m.body b).orMat * (byAngle (h b)).Qᵀ, ratesTurned θ (m.body b).acc,
      (((byAngle θ).Q *ᵥ (m.body b).ves.1.1 + d, (m.body b).ves.1.2 + ![0, 0, θ - h b]), ratesTurned θ (m.body b).ves.2.1,
        ratesTurned θ (m.body b).ves.2.2), (m.body b).F.map (Frame.load (byAngle θ))⟩ }

/-- A moment of a simulation. -/
noncomputable def ownSim (θ : ℝ) (d : V) (h : ℕ → ℝ) (g : ℝ) (s : Time.Sim ℝ (State (Quat ℝ)) GearMem) : Time.Sim ℝ (State (Quat ℝ)) GearMem :=
  ⟨s.t, s.tl, fun k => ownState θ d h g (s.r k), fun k => ownDeriv θ h g (s.rd k), s.n, ownMem θ d h g s.m⟩

/-- The ground has not been moved, the rods have attitudes, and coupled bodies and rods are level unless the axes of the world stay. -/
structure Gear.Standing (θ : ℝ) (G : Gear) (m : GearMem) : Prop where
  ground : IsGround m.ground
  rods : ∀ i, 0 < (m.rod i).quat.normSq
  body : ∀ b, G.bkind b = .COUPLED → θ = 0 ∨ Level ((m.body b).ves.1, (m.body b).ves.2.1)
  rod : ∀ i, G.rkind i = .COUPLED → θ = 0 ∨ Level ((m.rod i).ves.1, (m.rod i).ves.2.1)

/-- The system looks the same after a turn by `θ` about a vertical axis, each object taking the place of its counterpart `β`: seen from turned
axes the bodies, rods, points and lines are those there are, under other numbers, and bottom and water are the same.  A body that takes the place
of body `b` lies there with axes of its own that are turned by `h b` against those of `b`, after the turn.  The first direction of a rod is that
of its counterpart turned by `g`. -/
def Gear.Symmetric (θ : ℝ) (d : V) (h : ℕ → ℝ) (g : ℝ) (β : Names) (G : Gear) : Prop := Gear.Part β G (G.turned θ d h g)

/-- At this moment of the simulation each object is where its counterpart is, after the turn, and moves likewise. -/
def Gear.SymSim (θ : ℝ) (d : V) (h : ℕ → ℝ) (g : ℝ) (β : Names) (G : Gear) (s : Time.Sim ℝ (State (Quat ℝ)) GearMem) : Prop :=
  ∃ s', ViewSim (ownTurned θ d h g) G.code (G.turned θ d h g).code s s' ∧ SameSim β (G.turned θ d h g).code s s'

/-- What is asked for is symmetric, and level for bodies and rods that are moved. -/
structure Gear.SymAsked (θ : ℝ) (d : V) (h : ℕ → ℝ) (g : ℝ) (β : Names) (G : Gear) (x : Asked) : Prop where
  body : ∀ b < G.nb, x.body (β.body b) =
    (((byAngle θ).Q *ᵥ (x.body b).1.1 + d, (x.body b).1.2 + ![0, 0, θ - h b]), (byAngle θ).Q *ᵥ (x.body b).2.1, (byAngle θ).Q *ᵥ (x.body b).2.2)
  rod : ∀ i < G.nr, x.rod (β.rod i) =
    (((byAngle θ).Q *ᵥ (x.rod i).1.1 + d, (x.rod i).1.2 + ![0, 0, θ - g]), (byAngle θ).Q *ᵥ (x.rod i).2.1, (byAngle θ).Q *ᵥ (x.rod i).2.2)
  point : ∀ i < G.np, x.point (β.point i) = ((byAngle θ).Q *ᵥ (x.point i).1 + d, (byAngle θ).Q *ᵥ (x.point i).2)
  level : ∀ b < G.nb, G.bkind b = .COUPLED → Level (x.body b)
  levelRod : ∀ i < G.nr, G.rkind i = .COUPLED → Level (x.rod i)

end MD.Whole
