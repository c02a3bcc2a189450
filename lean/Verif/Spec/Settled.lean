import Verif.Spec.Connected

/-!
# Where things are put by a time and a state, object by object
-/

set_option linter.unusedVariables false

namespace MD.Whole

open MD.Mooring Matrix
open MD.Moored (Kind)

variable {Q FL FP FR FB Wt : Type} (S : System Q FL FP FR FB Wt)

/-- A body that moves: the ground counts as one, as it is put in its place again and again. -/
def Moves : Option ℕ → Prop
  | none => True
  | some b => b < S.nb ∧ S.bkind b ≠ .FIXED

/-- A body after `Update`: a coupled one is where it was told to be at the time `tl` of the call, a free one is where the state says;
of a pinned one the place is given and the rotation is in the state. -/
def bodyTo (tl : ℝ) (x : (V × Q) × (V × V)) (k : BKind) (B : Body Q FB) : Body Q FB :=
  match k with
  | .FREE => { B with pos := x.1.1, quat := x.1.2, vel := x.2.1, w := x.2.2, orMat := S.mat x.1.2 }
  | .COUPLED =>
    let p := S.pose (B.ves.1 + tl • B.ves.2.1)
    { B with pos := p.1, quat := p.2, vel := B.ves.2.1.1, w := B.ves.2.1.2, orMat := S.mat p.2, acc := B.ves.2.2 }
  | .CPLDPIN =>
    { B with pos := B.ves.1.1 + tl • B.ves.2.1.1, vel := B.ves.2.1.1, quat := x.1.2, w := x.2.2, orMat := S.mat x.1.2,
             acc := (B.ves.2.2.1, B.acc.2) }
  | .FIXED => B

/-- A rod with its ends where its pose says. -/
def laid (i : ℕ) (R : Rod Q FR) : Rod Q FR :=
  let q := S.mat R.quat *ᵥ S.q0 i
  { R with
    q := q
    r := fun j => if j = 0 then R.pos else if j = S.rodN i then R.pos + S.rodLen i • q else R.r j
    rd := fun j => if j = 0 then R.vel else if j = S.rodN i then R.vel + R.w ⨯₃ (S.rodLen i • q) else R.rd j }

/-- A rod fixed or pinned to a body, before its ends are told. -/
def borne (i : ℕ) (rel dir : V) (B : Body Q FB) (R : Rod Q FR) : Rod Q FR :=
  if S.rkind i = .FIXED then
    { R with pos := B.pos + B.orMat *ᵥ rel, quat := S.between (S.q0 i) (B.orMat *ᵥ dir), vel := B.vel + B.w ⨯₃ (B.orMat *ᵥ rel), w := B.w }
  else { R with pos := B.pos + B.orMat *ᵥ rel, vel := B.vel + B.w ⨯₃ (B.orMat *ᵥ rel) }

/-- What is given or in the state of a rod, before its ends are told. -/
def rodTo (tl : ℝ) (x : (V × Q) × (V × V)) (k : RKind) (R : Rod Q FR) : Rod Q FR :=
  match k with
  | .FREE => { R with pos := x.1.1, quat := x.1.2, vel := x.2.1, w := x.2.2 }
  | .PINNED => { R with quat := x.1.2, w := x.2.2 }
  | .COUPLED =>
    let p := S.pose (R.ves.1 + tl • R.ves.2.1)
    { R with pos := p.1, quat := p.2, vel := R.ves.2.1.1, w := R.ves.2.1.2, acc := R.ves.2.2 }
  | .CPLDPIN =>
    { R with pos := R.ves.1.1 + tl • R.ves.2.1.1, vel := R.ves.2.1.1, quat := x.1.2, w := x.2.2, acc := (R.ves.2.2.1, R.acc.2) }
  | .FIXED => R

/-- A point that moves. -/
def PMoves (i : ℕ) : Prop := (i < S.np ∧ S.pkind i ≠ .FIXED) ∨ ∃ b, Moves S b ∧ ∃ rel, (i, rel) ∈ S.pts b

/-- A rod that moves. -/
def RMoves (i : ℕ) : Prop := (i < S.nr ∧ S.rkind i ≠ .FIXED) ∨ ∃ b, Moves S b ∧ ∃ rel, (i, rel) ∈ S.rods b

/-- `m'` is what `m` becomes when it is told a time and a state, object by object: no order of the objects is in this description. -/
structure Settled (t tl : ℝ) (e : State Q) (m m' : Mem Q FL FP FR FB) : Prop where
  time : m'.t = t
  ground : m'.ground = bodyTo S t ((0, S.one), (0, 0)) .COUPLED m.ground
  body : ∀ b < S.nb, m'.body b = bodyTo S tl (e.2.2.2 b) (S.bkind b) (m.body b)
  pointOn : ∀ b, Moves S b → ∀ a ∈ S.pts b, let B := m'.bodyOf b
    m'.point a.1 = { m.point a.1 with r := B.pos + B.orMat *ᵥ a.2, rd := B.vel + B.w ⨯₃ (B.orMat *ᵥ a.2) }
  pointGiven : ∀ i < S.np, S.pkind i = .COUPLED →
    m'.point i = { m.point i with r := (m.point i).ves.1 + tl • (m.point i).ves.2, rd := (m.point i).ves.2 }
  pointFree : ∀ i < S.np, S.pkind i = .FREE → m'.point i = { m.point i with r := (e.2.1 i).1, rd := (e.2.1 i).2 }
  pointStays : ∀ i, ¬ PMoves S i → m'.point i = m.point i
  rodOn : ∀ b, Moves S b → ∀ a ∈ S.rods b, m'.rod a.1 =
    laid S a.1 (rodTo S tl (e.2.2.1 a.1) (S.rkind a.1) (borne S a.1 a.2.1 a.2.2 (m'.bodyOf b) (m.rod a.1)))
  rodAlone : ∀ i < S.nr, S.rkind i ≠ .FIXED → (¬ ∃ b, Moves S b ∧ ∃ rel, (i, rel) ∈ S.rods b) →
    m'.rod i = laid S i (rodTo S tl (e.2.2.1 i) (S.rkind i) (m.rod i))
  rodStays : ∀ i, ¬ RMoves S i → m'.rod i = m.rod i
  force : ∀ k, (m'.line k).F = (m.line k).F
  inner : ∀ k j, j ≠ 0 → j ≠ S.lineN k → ((m'.line k).s.r j, (m'.line k).s.rd j) =
    if k < S.nl ∧ j < S.lineN k then e.1 k (j - 1) else ((m.line k).s.r j, (m.line k).s.rd j)
  aim : ∀ i, ∀ a ∈ S.ends i, (tip S a.1 (m'.line a.1) a.2).2.2.2 = (tip S a.1 (m.line a.1) a.2).2.2.2
  connected : Connected S m'

end MD.Whole
