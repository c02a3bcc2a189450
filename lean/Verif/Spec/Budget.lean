import Verif.Model.Gear
import Verif.Spec.Now
import Verif.Spec.Connected
import Verif.Props.Balance
import Verif.Props.Body

/-!
# The budget of forces and moments of a system with bodies and rods

What is read after an evaluation, and what acts from outside.  Moments are about the origin.
-/

set_option linter.unusedVariables false

namespace MD.Whole

open MD.Mooring Matrix MD.Mat MD.Rot Finset
open MD.Moored (Kind)

/-- The objects of a system with the formulas of the code. -/
abbrev Objects := Mem (Quat ℝ) LineOut (Option Bodies.Point) RodOut (Option (V × V × M6 ℝ))

variable (G : Gear) (m : Objects)

/-! ## What is there -/

/-- Line `k` as it is. -/
def Gear.lineAt (k : ℕ) : Mooring.Line :=
  let s := (m.line k).s
  { G.line k with r := s.r, rd := s.rd, endTypeA := s.endA, endTypeB := s.endB, qA := s.qA, qB := s.qB }

/-- The sea around line `k`. -/
def Gear.lineSea (k : ℕ) : Env :=
  let w := fun j => G.kin m.t ((m.line k).s.r j)
  { G.env with zeta := fun j => (w j).1, U := fun j => (w j).2.1, Ud := fun j => (w j).2.2.1, pdyn := fun j => (w j).2.2.2 }

/-- Rod `i` as it is, without lines. -/
def Gear.rodAt (i : ℕ) : Rods.Rod :=
  { G.rod i with r0 := (m.rod i).r 0, q := (m.rod i).q, vA := (m.rod i).rd 0, w := (m.rod i).w, attachedA := [], attachedB := [] }

/-- The sea around rod `i`. -/
def Gear.rodSea (i : ℕ) : Env :=
  let w := fun j => G.kin m.t ((m.rod i).r j)
  { G.env with zeta := fun j => (w j).1, U := fun j => (w j).2.1, Ud := fun j => (w j).2.2.1, pdyn := fun j => (w j).2.2.2 }

/-- The angles of rod `i`. -/
noncomputable def Gear.lean (i : ℕ) : ℝ × ℝ := (Rods.angles (G.rodAt m i)).getD 0

/-- Point `i` as it is, without lines. -/
def Gear.pointAt (i : ℕ) : Bodies.Point :=
  { G.point i with r := (m.point i).r, rd := (m.point i).rd, U := (G.kin m.t (m.point i).r).2.1, attached := [] }

/-- Body `b` as it is. -/
def Gear.bodyAt (b : ℕ) : Bodies.Body :=
  { G.body b with pos := (m.body b).pos, OrMat := (m.body b).orMat, v := (m.body b).vel, w := (m.body b).w, U := (G.kin m.t (m.body b).pos).2.1 }

/-! ## What acts from outside -/

/-- On node `j` of line `k`: weight less buoyancy, drag, inertia of the water, bottom, and the pressure inside. -/
noncomputable def Gear.lineLoad (k j : ℕ) : V :=
  Balance.load (G.lineAt m k) (G.lineSea m k) j + Pb (G.lineAt m k) (G.lineSea m k) j

/-- On node `j` of rod `i`: weight, buoyancy, drag, inertia of the water, pressure of the waves, bottom. -/
noncomputable def Gear.rodLoad (i j : ℕ) : V :=
  let R := G.rodAt m i
  let e := G.rodSea m i
  let phi := (G.lean m i).1
  Rods.W R e j + Rods.Bo R e phi (G.lean m i).2 j + Rods.Dp R e phi j + Rods.Dq R e phi j + Rods.Ap R e phi j + Rods.Aq R e phi j +
    Rods.Pd R e phi j + Rods.B R e j

/-- On point `i`: applied force, weight, buoyancy, drag. -/
noncomputable def Gear.pointLoad (i : ℕ) : V := Bodies.pointLoads (G.pointAt m i) G.env.rho_w G.env.g

/-- On body `b`: weight, buoyancy, drag. -/
noncomputable def Gear.bodyLoad (b : ℕ) : V := (G.bodyAt m b).Fgrav G.env.rho_w G.env.g + (G.bodyAt m b).drag G.env.rho_w

/-- The moment of what acts on body `b` itself about the origin: weight and buoyancy act at the centre of gravity, drag at the reference
point. -/
noncomputable def Gear.bodyTorque (b : ℕ) : V :=
  ((m.body b).pos + (G.bodyAt m b).rCG) ⨯₃ (G.bodyAt m b).Fgrav G.env.rho_w G.env.g + (m.body b).pos ⨯₃ (G.bodyAt m b).drag G.env.rho_w +
    (G.bodyAt m b).dragMoment G.env.rho_w

/-- The moments of pressure on the ends and on the section at the surface of rod `i`. -/
noncomputable def Gear.rodTorque (i : ℕ) : V :=
  Rods.MextCap (G.rodAt m i) (G.rodSea m i) (G.lean m i).1 (G.lean m i).2 + Rods.MextWater (G.rodAt m i) (G.rodSea m i) (G.lean m i).1 (G.lean m i).2

/-- The moments at the clamped ends of line `k`, if it is stiff. -/
noncomputable def Gear.clamped (k : ℕ) : V :=
  let L := G.lineAt m k
  open Classical in
  if isEI L then (if L.endTypeB = .CANTILEVERED then endMoment L L.N else 0) - (if L.endTypeA = .CANTILEVERED then endMoment L 0 else 0) else 0

/-! ## Masses on the bodies -/

/-- The mass of the node at an end of a line. -/
noncomputable def Gear.endMass (a : ℕ × EndPt) : M3 ℝ := M (G.lineAt m a.1) (G.lineSea m a.1) (Energy.endNode (G.lineAt m a.1) a.2)

/-- The mass of point `i`: its own, that of the water, and those of the ends of lines. -/
noncomputable def Gear.pointMass (i : ℕ) : M3 ℝ :=
  ((G.ends i).map (G.endMass m)).sum +
    ((G.point i).pointM + (G.point i).pointCa * (G.env.rho_w * (G.point i).pointV)) • (1 : M3 ℝ)

/-- The mass of node `j` of rod `i`: its own, that of the water, and those of the ends of lines. -/
noncomputable def Gear.rodMass (i j : ℕ) : M3 ℝ :=
  Rods.m (G.rodAt m i) j • (1 : M3 ℝ) + Rods.addedM (G.rodAt m i) (G.rodSea m i) (G.lean m i).1 j +
    ((if j = 0 then ((G.endsA i).map (G.endMass m)).sum else 0) + if j = (G.rod i).N then ((G.endsB i).map (G.endMass m)).sum else 0)

/-- The force by which the angular velocity of body `b` keeps all masses on it on circles about its reference point: its own mass at the centre
of gravity, those of its points, those of the nodes of its rods. -/
noncomputable def Gear.turning (b : ℕ) : V :=
  let acc (x : V) : V := (m.body b).w ⨯₃ ((m.body b).w ⨯₃ (x - (m.body b).pos))
  ((G.bodyAt m b).ownM G.env.rho_w).toBlocks₁₁ *ᵥ acc ((m.body b).pos + (G.bodyAt m b).rCG) +
    ((G.pts (some b)).map fun a => G.pointMass m a.1 *ᵥ acc (m.point a.1).r).sum +
    ((G.rods (some b)).map fun a => if (G.rod a.1).N = 0 then 0 else
      ∑ j ∈ range ((G.rod a.1).N + 1), G.rodMass m a.1 j *ᵥ acc (Rods.r (G.rodAt m a.1) j)).sum

/-! ## What is read afterwards -/

/-- The force of a line at one of its ends. -/
noncomputable def pull (m' : Objects) (a : ℕ × EndPt) : V := (((m'.line a.1).F.stuff a.2).map (·.1)).getD 0

/-- The force on a point. -/
noncomputable def Gear.pointGets (m' : Objects) (i : ℕ) : V :=
  ((m'.point i).F.map fun P => (P.doRHS G.env.rho_w G.env.g).1).getD 0

/-- The force on a rod, the moment about its end A, and the masses. -/
noncomputable def rodGets (m' : Objects) (i : ℕ) : V × V × M6 ℝ := ((m'.rod i).F.about (m'.rod i).F.rA 0).getD 0

/-- The force on a body, the moment about its reference point, and the masses. -/
noncomputable def bodyGets (m' : Objects) (b : ℕ) : V × V × M6 ℝ := (m'.body b).F.getD 0

/-- The acceleration of inner node `j` of line `k`, from the rates of change given to the integrator. -/
noncomputable def Gear.nodeAcc (k j : ℕ) : V := ((rates G.code m (evaluate G.code m)).1 k (j - 1)).2

/-- The place of an end of a line. -/
noncomputable def Gear.place (a : ℕ × EndPt) : V := (tip G.code a.1 (m.line a.1) a.2).1

/-! ## Systems -/

/-- How input files put systems together: each end of a line is at one point or one end of a rod, and what is on a body is there once. -/
structure Gear.Fitted (G : Gear) : Prop where
  ends : ((List.range G.np).flatMap G.ends ++ (List.range G.nr).flatMap fun i => G.endsA i ++ G.endsB i).Perm
    ((List.range G.nl).flatMap fun k => [(k, .BOTTOM), (k, .TOP)])
  pts : ∀ b, ((G.pts b).map Prod.fst).Nodup
  rods : ∀ b, ((G.rods b).map Prod.fst).Nodup
  ptOne : ∀ b b', ∀ a ∈ G.pts b, ∀ a' ∈ G.pts b', a.1 = a'.1 → b = b'
  rodOne : ∀ b b', ∀ a ∈ G.rods b, ∀ a' ∈ G.rods b', a.1 = a'.1 → b = b'
  ptNum : ∀ b, ∀ a ∈ G.pts b, a.1 < G.np
  rodNum : ∀ b, ∀ a ∈ G.rods b, a.1 < G.nr
  spare : ∀ i, G.np ≤ i → G.ends i = []
  spareRod : ∀ i, G.nr ≤ i → G.endsA i = [] ∧ G.endsB i = []

/-- All forces are numbers, and the masses of the nodes of lines can be inverted.  Lines have segments. -/
structure Gear.Sane (G : Gear) (m : Objects) : Prop where
  segs : ∀ k < G.nl, 1 ≤ (G.line k).N
  node : ∀ k < G.nl, ∀ j ≤ (G.line k).N, Fnet (G.lineAt m k) (G.lineSea m k) j ≠ none
  mass : ∀ k < G.nl, ∀ j, 1 ≤ j → j < (G.line k).N → IsUnit (M (G.lineAt m k) (G.lineSea m k) j).det
  rod : ∀ i < G.nr, Rods.angles (G.rodAt m i) ≠ none ∧ Rods.inertiaCorrection (G.rodAt m i) ≠ none

/-- A point, or a rod, is on a body whose forces are computed. -/
def Gear.PointOnBody (i : ℕ) : Prop := ∃ b, BodyCounts G.code b ∧ ∃ rel, (i, rel) ∈ G.pts (some b)

@[inherit_doc Gear.PointOnBody]
def Gear.RodOnBody (i : ℕ) : Prop := ∃ b, BodyCounts G.code b ∧ ∃ rel, (i, rel) ∈ G.rods (some b)

end MD.Whole
