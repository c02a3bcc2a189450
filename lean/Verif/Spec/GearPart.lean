import Verif.Model.Gear
import Verif.Spec.Within

/-!
# A part of a system with the formulas of the code, and other numbers
-/

namespace MD.Whole

open MD.Mooring

/-- `G'` is a part of `G` that nothing but the ground connects to the rest: the same bodies, rods, points and lines under other numbers, in the
same sea, holding the same, in any order. -/
structure Gear.Part (β : Names) (G G' : Gear) : Prop where
  nb : ∀ b < G'.nb, β.body b < G.nb
  nr : ∀ i < G'.nr, β.rod i < G.nr
  np : ∀ i < G'.np, β.point i < G.np
  nl : ∀ k < G'.nl, β.line k < G.nl
  bkind : ∀ b < G'.nb, G'.bkind b = G.bkind (β.body b)
  rkind : ∀ i < G'.nr, G'.rkind i = G.rkind (β.rod i)
  pkind : ∀ i < G'.np, G'.pkind i = G.pkind (β.point i)
  pts : ∀ b < G'.nb, (G.pts (some (β.body b))).Perm ((G'.pts (some b)).map fun a => (β.point a.1, a.2))
  rods : ∀ b < G'.nb, (G.rods (some (β.body b))).Perm ((G'.rods (some b)).map fun a => (β.rod a.1, a.2))
  groundPts : ∀ a ∈ G'.pts none, (β.point a.1, a.2) ∈ G.pts none
  groundRods : ∀ a ∈ G'.rods none, (β.rod a.1, a.2) ∈ G.rods none
  ptsBack : ∀ i < G'.np, ∀ b rel, (β.point i, rel) ∈ G.pts b → ∃ b', b = b'.map β.body ∧ (i, rel) ∈ G'.pts b'
  rodsBack : ∀ i < G'.nr, ∀ b rel, (β.rod i, rel) ∈ G.rods b → ∃ b', b = b'.map β.body ∧ (i, rel) ∈ G'.rods b'
  ends : ∀ i < G'.np, (G.ends (β.point i)).Perm ((G'.ends i).map β.endOf)
  endsA : ∀ i < G'.nr, (G.endsA (β.rod i)).Perm ((G'.endsA i).map β.endOf)
  endsB : ∀ i < G'.nr, (G.endsB (β.rod i)).Perm ((G'.endsB i).map β.endOf)
  held : ∀ k < G'.nl, ∀ p, (∃ i < G'.np, (k, p) ∈ G'.ends i) ∨ ∃ i < G'.nr, (k, p) ∈ G'.endsA i ∨ (k, p) ∈ G'.endsB i
  q0 : ∀ i < G'.nr, G'.q0 i = G.q0 (β.rod i)
  line : ∀ k < G'.nl, G'.line k = G.line (β.line k)
  point : ∀ i < G'.np, G'.point i = G.point (β.point i)
  rod : ∀ i < G'.nr, G'.rod i = G.rod (β.rod i)
  body : ∀ b < G'.nb, G'.body b = G.body (β.body b)
  env : G'.env = G.env
  kin : G'.kin = G.kin
  half : G'.half = G.half

/-- The objects of a system under other numbers. -/
def Gear.renumbered (σ : Order) (G : Gear) : Gear :=
  { G with
    bkind := fun b => G.bkind (σ.body.symm b)
    rkind := fun i => G.rkind (σ.rod.symm i)
    pkind := fun i => G.pkind (σ.point.symm i)
    pts := fun b => (G.pts (b.map σ.body.symm)).map fun a => (σ.point a.1, a.2)
    rods := fun b => (G.rods (b.map σ.body.symm)).map fun a => (σ.rod a.1, a.2)
    ends := fun i => (G.ends (σ.point.symm i)).map σ.names.endOf
    endsA := fun i => (G.endsA (σ.rod.symm i)).map σ.names.endOf
    endsB := fun i => (G.endsB (σ.rod.symm i)).map σ.names.endOf
    q0 := fun i => G.q0 (σ.rod.symm i)
    line := fun k => G.line (σ.line.symm k)
    point := fun i => G.point (σ.point.symm i)
    rod := fun i => G.rod (σ.rod.symm i)
    body := fun b => G.body (σ.body.symm b) }

/-- Only objects that there are get other numbers. -/
structure Order.Of (σ : Order) (G : Gear) : Prop where
  bodies : ∀ b, σ.body b < G.nb ↔ b < G.nb
  rods : ∀ i, σ.rod i < G.nr ↔ i < G.nr
  points : ∀ i, σ.point i < G.np ↔ i < G.np
  lines : ∀ k, σ.line k < G.nl ↔ k < G.nl

/-- How an input file puts systems together: each end of a line there is is held by one point or rod that there is; points and rods are on one
body at most; what is on a body is fixed to it, or a pinned rod; all numbers are those of objects there are; lines have segments; rods have a
length. -/
structure Gear.Rightly (G : Gear) : Prop where
  sound : Sound G.code
  long : ∀ i < G.nr, 0 < (G.rod i).N
  held : ∀ k < G.nl, ∀ p, (∃ i < G.np, (k, p) ∈ G.ends i) ∨ ∃ i < G.nr, (k, p) ∈ G.endsA i ∨ (k, p) ∈ G.endsB i
  endsNum : ∀ h : Holder, ∀ a ∈ h.list G.code, a.1 < G.nl

end MD.Whole
