import Verif.Spec.Connected
import Verif.Model.WholeScheme
import Mathlib.Logic.Equiv.Defs

/-!
# A part of a system, and what it means that it does the same
-/

set_option linter.unusedVariables false

namespace MD.Whole

open MD.Mooring Matrix
open MD.Moored (Kind)

variable {Q FL FP FR FB Wt : Type}

/-- The numbers that the objects of one system have in another. -/
structure Names where
  body : ℕ → ℕ
  rod : ℕ → ℕ
  point : ℕ → ℕ
  line : ℕ → ℕ

variable (β : Names)

/-- The end of a line under its other number. -/
def Names.endOf (a : ℕ × EndPt) : ℕ × EndPt := (β.line a.1, a.2)

/-- A point or rod there is. -/
def Holder.There (S : System Q FL FP FR FB Wt) : Holder → Prop
  | .point i => i < S.np
  | .rodA i => i < S.nr
  | .rodB i => i < S.nr

/-- `S'` is a part of `S` that nothing but the ground connects to the rest: what its bodies, rods and points hold in `S` is what they hold
in `S'`, in any order, and nothing else holds it.  Water, ground and formulas are the same, and the formulas do not depend on the order of
what is added up. -/
structure Within (S S' : System Q FL FP FR FB Wt) : Prop where
  nb : ∀ b < S'.nb, β.body b < S.nb
  nr : ∀ i < S'.nr, β.rod i < S.nr
  np : ∀ i < S'.np, β.point i < S.np
  nl : ∀ k < S'.nl, β.line k < S.nl
  bkind : ∀ b < S'.nb, S'.bkind b = S.bkind (β.body b)
  rkind : ∀ i < S'.nr, S'.rkind i = S.rkind (β.rod i)
  pkind : ∀ i < S'.np, S'.pkind i = S.pkind (β.point i)
  pts : ∀ b < S'.nb, (S.pts (some (β.body b))).Perm ((S'.pts (some b)).map fun a => (β.point a.1, a.2))
  rods : ∀ b < S'.nb, (S.rods (some (β.body b))).Perm ((S'.rods (some b)).map fun a => (β.rod a.1, a.2))
  groundPts : ∀ a ∈ S'.pts none, (β.point a.1, a.2) ∈ S.pts none
  groundRods : ∀ a ∈ S'.rods none, (β.rod a.1, a.2) ∈ S.rods none
  ptsBack : ∀ i < S'.np, ∀ b rel, (β.point i, rel) ∈ S.pts b → ∃ b', b = b'.map β.body ∧ (i, rel) ∈ S'.pts b'
  rodsBack : ∀ i < S'.nr, ∀ b rel, (β.rod i, rel) ∈ S.rods b → ∃ b', b = b'.map β.body ∧ (i, rel) ∈ S'.rods b'
  ends : ∀ i < S'.np, (S.ends (β.point i)).Perm ((S'.ends i).map β.endOf)
  endsA : ∀ i < S'.nr, (S.endsA (β.rod i)).Perm ((S'.endsA i).map β.endOf)
  endsB : ∀ i < S'.nr, (S.endsB (β.rod i)).Perm ((S'.endsB i).map β.endOf)
  held : ∀ k < S'.nl, ∀ p, ∃ h : Holder, h.There S' ∧ (k, p) ∈ h.list S'
  rodN : ∀ i < S'.nr, S'.rodN i = S.rodN (β.rod i)
  rodLen : ∀ i < S'.nr, S'.rodLen i = S.rodLen (β.rod i)
  q0 : ∀ i < S'.nr, S'.q0 i = S.q0 (β.rod i)
  lineN : ∀ k < S'.nl, S'.lineN k = S.lineN (β.line k)
  mat : S'.mat = S.mat
  pose : S'.pose = S.pose
  between : S'.between = S.between
  one : S'.one = S.one
  sea : S'.sea = S.sea
  lineF : ∀ k < S'.nl, S'.lineF k = S.lineF (β.line k)
  pointF : ∀ i < S'.np, ∀ r rd w l l', l'.Perm l → S'.pointF i r rd w l = S.pointF (β.point i) r rd w l'
  rodF : ∀ i < S'.nr, ∀ quat w q r rd wt lA lA' lB lB', lA'.Perm lA → lB'.Perm lB →
    S'.rodF i quat w q r rd wt lA lB = S.rodF (β.rod i) quat w q r rd wt lA' lB'
  bodyF : ∀ b < S'.nb, ∀ pos quat vel w M wt lP lP' lR lR', lP'.Perm lP → lR'.Perm lR →
    S'.bodyF b pos quat vel w M wt lP lR = S.bodyF (β.body b) pos quat vel w M wt lP' lR'
  pointA : S'.pointA = S.pointA
  rodA : S'.rodA = S.rodA
  pinA : S'.pinA = S.pinA
  quatA : S'.quatA = S.quatA
  bodyA : S'.bodyA = S.bodyA
  bodyPinA : S'.bodyPinA = S.bodyPinA

/-- Everything in the part is the same: places, velocities, and all the forces. -/
structure SameMem (S' : System Q FL FP FR FB Wt) (m m' : Mem Q FL FP FR FB) : Prop where
  t : m'.t = m.t
  ground : m'.ground = m.ground
  body : ∀ b < S'.nb, m'.body b = m.body (β.body b)
  rod : ∀ i < S'.nr, m'.rod i = m.rod (β.rod i)
  point : ∀ i < S'.np, m'.point i = m.point (β.point i)
  line : ∀ k < S'.nl, m'.line k = m.line (β.line k)

/-- The same of states or of rates. -/
structure SameState (S' : System Q FL FP FR FB Wt) (e e' : State Q) : Prop where
  line : ∀ k < S'.nl, e'.1 k = e.1 (β.line k)
  point : ∀ i < S'.np, e'.2.1 i = e.2.1 (β.point i)
  rod : ∀ i < S'.nr, e'.2.2.1 i = e.2.2.1 (β.rod i)
  body : ∀ b < S'.nb, e'.2.2.2 b = e.2.2.2 (β.body b)

/-- A moment of two simulations. -/
structure SameSim [AddCommGroup Q] [Module ℝ Q] (S' : System Q FL FP FR FB Wt) (s s' : Time.Sim ℝ (State Q) (Mem Q FL FP FR FB)) : Prop where
  t : s'.t = s.t
  tl : s'.tl = s.tl
  n : s'.n = s.n
  r : SameState β S' (s.r 0) (s'.r 0)
  rd : ∀ k, SameState β S' (s.rd k) (s'.rd k)
  m : SameMem β S' s.m s'.m

/-- The same is asked for in a call. -/
structure SameAsked (S' : System Q FL FP FR FB Wt) (x x' : Asked) : Prop where
  dt : x'.dt = x.dt
  body : ∀ b < S'.nb, x'.body b = x.body (β.body b)
  rod : ∀ i < S'.nr, x'.rod i = x.rod (β.rod i)
  point : ∀ i < S'.np, x'.point i = x.point (β.point i)

/-- The same objects are evaluated. -/
structure SameFresh (S' : System Q FL FP FR FB Wt) (fr fr' : Fresh) : Prop where
  line : ∀ k < S'.nl, fr'.line k = fr.line (β.line k)
  point : ∀ i < S'.np, fr'.point i = fr.point (β.point i)
  rod : ∀ i < S'.nr, fr'.rod i = fr.rod (β.rod i)
  body : ∀ b < S'.nb, fr'.body b = fr.body (β.body b)

/-- New numbers for all objects. -/
structure Order where
  body : ℕ ≃ ℕ
  rod : ℕ ≃ ℕ
  point : ℕ ≃ ℕ
  line : ℕ ≃ ℕ

/-- The new number of each. -/
def Order.names (σ : Order) : Names := ⟨σ.body, σ.rod, σ.point, σ.line⟩

end MD.Whole
