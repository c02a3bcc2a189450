import Verif.Model.Whole

/-!
# The forces that belong to the places where things are
-/

set_option linter.unusedVariables false

namespace MD.Whole

open MD.Mooring Matrix
open MD.Moored (Kind)

variable {Q FL FP FR FB Wt : Type} (S : System Q FL FP FR FB Wt) (m : Mem Q FL FP FR FB)

/-- What a line gives where it is now, in the water of now. -/
def lineNow (k : ℕ) : FL := (S.lineF k (m.line k).s fun j => S.sea m.t ((m.line k).s.r j)).2

/-- What lines give. -/
def pullNow (l : List (ℕ × EndPt)) : List (FL × EndPt) := l.map fun a => (lineNow S m a.1, a.2)

/-- The forces on a point: of its lines, and of the water where it is. -/
def pointNow (i : ℕ) : FP := S.pointF i (m.point i).r (m.point i).rd (S.sea m.t (m.point i).r) (pullNow S m (S.ends i))

/-- The nodes of a rod, evenly spaced between its ends. -/
noncomputable def spaced (N : ℕ) (x : ℕ → V) (j : ℕ) : V := if j < N then x 0 + ((j : ℝ) / N) • (x N - x 0) else x j

/-- The forces on a rod: of its lines, and of the water at the places `at'` of its nodes. -/
noncomputable def rodNow (at' : ℕ → V) (i : ℕ) : FR :=
  S.rodF i (m.rod i).quat (m.rod i).w (m.rod i).q (spaced (S.rodN i) (m.rod i).r) (spaced (S.rodN i) (m.rod i).rd)
    (fun j => S.sea m.t (at' j)) (pullNow S m (S.endsA i)) (pullNow S m (S.endsB i))

/-- The forces on a body: of the water where it is, and of its points and rods. -/
noncomputable def bodyNow (at' : ℕ → ℕ → V) (b : ℕ) : FB :=
  let B := m.body b
  S.bodyF b B.pos B.quat B.vel B.w B.orMat (S.sea m.t B.pos)
    ((S.pts (some b)).map fun a => ((m.point a.1).r, pointNow S m a.1))
    ((S.rods (some b)).map fun a => ((m.rod a.1).pos, (m.rod a.1).vel, rodNow S m (at' a.1) a.1))

/-- Bodies whose forces are asked for: not those that are fixed. -/
def BodyCounts (b : ℕ) : Prop := b < S.nb ∧ S.bkind b ≠ .FIXED

/-- Points whose forces are asked for: those that are not fixed, and those on such a body. -/
def PointCounts (i : ℕ) : Prop := i < S.np ∧ S.pkind i ≠ .FIXED ∨ ∃ b, BodyCounts S b ∧ ∃ rel, (i, rel) ∈ S.pts (some b)

@[inherit_doc PointCounts]
def RodCounts (i : ℕ) : Prop := i < S.nr ∧ S.rkind i ≠ .FIXED ∨ ∃ b, BodyCounts S b ∧ ∃ rel, (i, rel) ∈ S.rods (some b)

end MD.Whole
