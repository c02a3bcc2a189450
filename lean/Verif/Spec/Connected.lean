import Verif.Model.Whole

/-!
# What it means that things are connected
-/

set_option linter.unusedSimpArgs false
set_option linter.unusedSectionVars false
set_option linter.unusedVariables false

namespace MD.Whole

open MD.Mooring Matrix
open MD.Moored (Kind)

variable {Q FL FP FR FB Wt : Type} (S : System Q FL FP FR FB Wt)

/-! ## What it means -/

/-- The end of a line: place, velocity, how it is held, and in which direction. -/
def tip (k : ℕ) (L : Line FL) : EndPt → V × V × EndType × V
  | .TOP => (L.s.r (S.lineN k), L.s.rd (S.lineN k), L.s.endB, L.s.qB)
  | .BOTTOM => (L.s.r 0, L.s.rd 0, L.s.endA, L.s.qA)

/-- A body, or the ground. -/
def Mem.bodyOf (m : Mem Q FL FP FR FB) : Option ℕ → Body Q FB
  | none => m.ground
  | some b => m.body b

/-- A point is where it is fixed to a body, and moves with it. -/
def PointOn (b : Option ℕ) (i : ℕ) (rel : V) (m : Mem Q FL FP FR FB) : Prop :=
  let B := m.bodyOf b
  (m.point i).r = B.pos + B.orMat *ᵥ rel ∧ (m.point i).rd = B.vel + B.w ⨯₃ (B.orMat *ᵥ rel)

/-- End A of a rod is where it is fixed or pinned to a body, and moves with it. -/
def RodOn (b : Option ℕ) (i : ℕ) (rel : V) (m : Mem Q FL FP FR FB) : Prop :=
  let B := m.bodyOf b
  (m.rod i).pos = B.pos + B.orMat *ᵥ rel ∧ (m.rod i).vel = B.vel + B.w ⨯₃ (B.orMat *ᵥ rel)

/-- A rod turns with the body that it is fixed to. -/
def RodTurned (b : Option ℕ) (i : ℕ) (dir : V) (m : Mem Q FL FP FR FB) : Prop :=
  (m.rod i).quat = S.between (S.q0 i) ((m.bodyOf b).orMat *ᵥ dir) ∧ (m.rod i).w = (m.bodyOf b).w

/-- All lines at a point end there and move with it, and are free to turn. -/
def PointHolds (i : ℕ) (m : Mem Q FL FP FR FB) : Prop :=
  ∀ a ∈ S.ends i, ∃ d, tip S a.1 (m.line a.1) a.2 = ((m.point i).r, (m.point i).rd, .PINNED, d)

/-- The ends of a rod are as far from each other as it is long, in the direction of its axis, and move as a rigid rod does; the
lines at its ends end there and move with them, and are clamped in the direction of the axis. -/
def RodHolds (i : ℕ) (m : Mem Q FL FP FR FB) : Prop :=
  let R := m.rod i
  let q := S.mat R.quat *ᵥ S.q0 i
  R.r 0 = R.pos ∧ R.rd 0 = R.vel ∧
    (0 < S.rodN i → R.r (S.rodN i) = R.pos + S.rodLen i • q ∧ R.rd (S.rodN i) = R.vel + R.w ⨯₃ (S.rodLen i • q)) ∧
    (∀ a ∈ S.endsA i, ∃ d, tip S a.1 (m.line a.1) a.2 = (R.r 0, R.rd 0, .CANTILEVERED, d) ∧
      (0 < S.rodN i → d = if a.2 = .BOTTOM then -q else q)) ∧
    (∀ a ∈ S.endsB i, ∃ d, tip S a.1 (m.line a.1) a.2 = (R.r (S.rodN i), R.rd (S.rodN i), .CANTILEVERED, d) ∧
      (0 < S.rodN i → d = if a.2 = .TOP then -q else q))

/-- Everything is where it is connected. -/
structure Connected (m : Mem Q FL FP FR FB) : Prop where
  point : ∀ b, ∀ a ∈ S.pts b, PointOn b a.1 a.2 m
  rod : ∀ b, ∀ a ∈ S.rods b, RodOn b a.1 a.2.1 m ∧ (S.rkind a.1 = .FIXED → RodTurned S b a.1 a.2.2 m)
  holds : ∀ i < S.np, PointHolds S i m
  rodHolds : ∀ i < S.nr, RodHolds S i m

/-- Who holds the end of a line. -/
inductive Holder | point (i : ℕ) | rodA (i : ℕ) | rodB (i : ℕ)

/-- Which ends it holds. -/
def Holder.list : Holder → List (ℕ × EndPt)
  | .point i => S.ends i
  | .rodA i => S.endsA i
  | .rodB i => S.endsB i

/-- How the input file puts systems together: each end of a line is held once, points and rods are on one body at most, what is on a
body is fixed to it, or a pinned rod; the numbers are those of objects there are. -/
structure Sound : Prop where
  once : ∀ h h' : Holder, ∀ a ∈ h.list S, a ∈ h'.list S → h = h'
  lineN : ∀ k, 0 < S.lineN k
  pts : ∀ b b', ∀ a ∈ S.pts b, ∀ a' ∈ S.pts b', a.1 = a'.1 → b = b' ∧ a = a'
  rods : ∀ b b', ∀ a ∈ S.rods b, ∀ a' ∈ S.rods b', a.1 = a'.1 → b = b' ∧ a = a'
  ptsKind : ∀ b, ∀ a ∈ S.pts b, S.pkind a.1 = .FIXED
  rodsKind : ∀ b, ∀ a ∈ S.rods b, S.rkind a.1 = .FIXED ∨ S.rkind a.1 = .PINNED
  rodsNum : ∀ b, ∀ a ∈ S.rods b, a.1 < S.nr
  ptsNum : ∀ b, ∀ a ∈ S.pts b, a.1 < S.np
  bodyNum : ∀ b, (∃ a, a ∈ S.pts (some b)) ∨ (∃ a, a ∈ S.rods (some b)) → b < S.nb

end MD.Whole
