import Verif.Spec.Connected

/-!
# Where everything is after a call of `MoorDyn_Step`
-/

namespace MD.Whole

open MD.Mooring Matrix
open MD.Moored (Kind)

variable {Q FL FP FR FB Wt : Type} (S : System Q FL FP FR FB Wt)

/-- Rotation and angular velocity of a rod in the state; a rod without length has none. -/
def turned (i : ℕ) (x : (V × Q) × (V × V)) : Q × V := if S.rodN i = 0 then (S.one, 0) else (x.1.2, x.2.2)

/-- After a call in which `x` was asked: what is free is where the state `st` of the integrator says, what is coupled is where it was
told to be at the end of the call, what is pinned is there and is turned as the state says, what is fixed is where it was in `old`;
and everything is connected. -/
structure Placed (x : Asked) (st : State Q) (old m : Mem Q FL FP FR FB) : Prop where
  line : ∀ k < S.nl, ∀ j, 0 < j → j < S.lineN k → ((m.line k).s.r j, (m.line k).s.rd j) = st.1 k (j - 1)
  freePoint : ∀ i < S.np, S.pkind i = .FREE → ((m.point i).r, (m.point i).rd) = st.2.1 i
  coupledPoint : ∀ i < S.np, S.pkind i = .COUPLED →
    (m.point i).r = (x.point i).1 + x.dt • (x.point i).2 ∧ (m.point i).rd = (x.point i).2
  freeBody : ∀ b < S.nb, S.bkind b = .FREE → (((m.body b).pos, (m.body b).quat), (m.body b).vel, (m.body b).w) = st.2.2.2 b
  coupledBody : ∀ b < S.nb, S.bkind b = .COUPLED →
    ((m.body b).pos, (m.body b).quat) = S.pose ((x.body b).1 + x.dt • (x.body b).2) ∧ ((m.body b).vel, (m.body b).w) = (x.body b).2
  pinnedBody : ∀ b < S.nb, S.bkind b = .CPLDPIN →
    (m.body b).pos = (x.body b).1.1 + x.dt • (x.body b).2.1 ∧ (m.body b).vel = (x.body b).2.1 ∧
      (m.body b).quat = (st.2.2.2 b).1.2 ∧ (m.body b).w = (st.2.2.2 b).2.2
  fixedBody : ∀ b < S.nb, S.bkind b = .FIXED → (m.body b).pos = (old.body b).pos ∧ (m.body b).quat = (old.body b).quat ∧
    (m.body b).orMat = (old.body b).orMat ∧ (m.body b).vel = (old.body b).vel ∧ (m.body b).w = (old.body b).w
  matrix : ∀ b < S.nb, S.bkind b ≠ .FIXED → (m.body b).orMat = S.mat (m.body b).quat
  ground : old.ground.ves.2.1 = 0 → (m.ground.pos, m.ground.quat) = S.pose old.ground.ves.1 ∧ m.ground.orMat = S.mat m.ground.quat ∧
    m.ground.vel = 0 ∧ m.ground.w = 0
  freeRod : ∀ i < S.nr, S.rkind i = .FREE → ((m.rod i).pos, (m.rod i).vel) = ((st.2.2.1 i).1.1, (st.2.2.1 i).2.1) ∧
    ((m.rod i).quat, (m.rod i).w) = turned S i (st.2.2.1 i)
  hungRod : ∀ i < S.nr, S.rkind i = .PINNED → ((m.rod i).quat, (m.rod i).w) = turned S i (st.2.2.1 i)
  coupledRod : ∀ i < S.nr, S.rkind i = .COUPLED →
    ((m.rod i).pos, (m.rod i).quat) = S.pose ((x.rod i).1 + x.dt • (x.rod i).2) ∧ ((m.rod i).vel, (m.rod i).w) = (x.rod i).2
  pinnedRod : ∀ i < S.nr, S.rkind i = .CPLDPIN →
    (m.rod i).pos = (x.rod i).1.1 + x.dt • (x.rod i).2.1 ∧ (m.rod i).vel = (x.rod i).2.1 ∧
      ((m.rod i).quat, (m.rod i).w) = turned S i (st.2.2.1 i)
  connected : Connected S m

end MD.Whole
