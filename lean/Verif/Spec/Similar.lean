import Verif.Spec.Connected
import Verif.Model.WholeScheme

/-!
# The same system, seen from elsewhere, turned, and in other units
-/

namespace MD.Whole

open MD.Mooring Matrix
open MD.Moored (Kind)

/-- Another way to write down the same: in other units of length and time, with axes turned or mirrored by `R` (`sgn` is
-1 if a right hand becomes a left hand), from another origin, and with the
quantities that the evaluations leave, and quaternions and water, translated by given functions.  Each body may also be described in axes of its
own that are turned by `own` against those in which it was (or mirrored); `turnB` is what becomes of its quaternion, `turn` what becomes of that of a rod.  `ok`
and `fit` tell for which quaternions, and for which axes of rods, the formulas are known not to depend on how things are written down. -/
structure View (Q FL FP FR FB Wt : Type) [AddCommGroup Q] [Module ℝ Q] where
  len : ℝ
  tim : ℝ
  R : Matrix (Fin 3) (Fin 3) ℝ
  sgn : ℝ := 1
  shift : V
  turn : Q →ₗ[ℝ] Q
  own : ℕ → Matrix (Fin 3) (Fin 3) ℝ
  turnB : ℕ → Q →ₗ[ℝ] Q
  line : FL → FL
  point : FP → FP
  rod : FR → FR
  body : FB → FB
  water : Wt → Wt
  mom : ℝ
  ok : Q → Prop := fun _ => True
  fit : V → Prop := fun _ => True

variable {Q FL FP FR FB Wt : Type} [AddCommGroup Q] [Module ℝ Q] (o : View Q FL FP FR FB Wt)

namespace View

/-- A length with a direction. -/
def arrow (x : V) : V := o.len • (o.R *ᵥ x)

/-- A place. -/
def place (x : V) : V := o.len • (o.R *ᵥ x) + o.shift

/-- A velocity. -/
noncomputable def vel (v : V) : V := (o.len / o.tim) • (o.R *ᵥ v)

/-- An angular velocity. -/
noncomputable def spin (w : V) : V := (o.sgn / o.tim) • (o.R *ᵥ w)

/-- An acceleration. -/
noncomputable def acc (a : V) : V := (o.len / o.tim ^ 2) • (o.R *ᵥ a)

/-- An angular acceleration. -/
noncomputable def spinAcc (a : V) : V := (o.sgn / o.tim ^ 2) • (o.R *ᵥ a)

/-- The nodes and ends of a line. -/
noncomputable def shape (s : Shape) : Shape :=
  ⟨fun j => o.place (s.r j), fun j => o.vel (s.rd j), s.endA, s.endB, o.R *ᵥ s.qA, o.R *ᵥ s.qB⟩

/-- What may become of a quaternion. -/
def Turns (T : Q →ₗ[ℝ] Q) : Prop := T = o.turn ∨ ∃ b, T = o.turnB b

/-- What a line gives. -/
def got (a : FL × EndPt) : FL × EndPt := (o.line a.1, a.2)

end View

/-- The quaternions of a rod stand for the same axis, and but for rods fixed to bodies they are the same. -/
def SameTurn (S S' : System Q FL FP FR FB Wt) (i : ℕ) (q q' : Q) : Prop :=
  S'.mat q' *ᵥ S'.q0 i = o.R *ᵥ (S.mat q *ᵥ S.q0 i) ∧ (S.rkind i ≠ .FIXED → q' = o.turn q)

/-- `S'` is `S` written down in another way.  On bodies, points and rods are where they were; on the ground they are where they were.  The formulas do not depend on how things are written down. -/
structure Similar (S S' : System Q FL FP FR FB Wt) : Prop where
  len : 0 < o.len
  tim : 0 < o.tim
  hand : o.sgn * o.sgn = 1
  cross : ∀ a b : V, (o.R *ᵥ a) ⨯₃ (o.R *ᵥ b) = o.sgn • (o.R *ᵥ (a ⨯₃ b))
  nb : S'.nb = S.nb
  nr : S'.nr = S.nr
  np : S'.np = S.np
  nl : S'.nl = S.nl
  bkind : S'.bkind = S.bkind
  rkind : S'.rkind = S.rkind
  pkind : S'.pkind = S.pkind
  pts : ∀ b, S'.pts (some b) = (S.pts (some b)).map fun a => (a.1, o.len • (o.own b *ᵥ a.2))
  rods : ∀ b, S'.rods (some b) = (S.rods (some b)).map fun a => (a.1, o.len • (o.own b *ᵥ a.2.1), o.own b *ᵥ a.2.2)
  groundPts : S'.pts none = (S.pts none).map fun a => (a.1, o.place a.2)
  groundRods : S'.rods none = (S.rods none).map fun a => (a.1, o.place a.2.1, o.R *ᵥ a.2.2)
  ends : S'.ends = S.ends
  endsA : S'.endsA = S.endsA
  endsB : S'.endsB = S.endsB
  rodN : S'.rodN = S.rodN
  rodLen : ∀ i, S'.rodLen i = o.len * S.rodLen i
  lineN : S'.lineN = S.lineN
  there : ∀ b, ∀ a ∈ S.rods b, a.1 < S.nr
  mat : ∀ i q, o.ok q → S'.mat (o.turn q) *ᵥ S'.q0 i = o.R *ᵥ (S.mat q *ᵥ S.q0 i)
  orth : ∀ b, (o.own b)ᵀ * o.own b = 1
  matB : ∀ b q, o.ok q → S'.mat (o.turnB b q) = o.R * S.mat q * (o.own b)ᵀ
  posed : ∀ x, o.ok (S.pose x).2
  between : ∀ b, ∀ a ∈ S.rods b, S.rkind a.1 = .FIXED → ∀ q, o.ok q →
    S'.mat (S'.between (S'.q0 a.1) (o.R *ᵥ (S.mat q *ᵥ a.2.2))) *ᵥ S'.q0 a.1 = o.R *ᵥ (S.mat (S.between (S.q0 a.1) (S.mat q *ᵥ a.2.2)) *ᵥ S.q0 a.1)
  one : ∀ i < S.nr, S.rodN i = 0 → S'.one = o.turn S.one ∧ o.ok S.one
  ground : (S.pose 0).1 = 0 ∧ S.mat (S.pose 0).2 = 1 ∧ (S'.pose 0).1 = 0 ∧ S'.mat (S'.pose 0).2 = 1
  sea : ∀ t x, S'.sea (o.tim * t) (o.place x) = o.water (S.sea t x)
  moment : ∀ k s F p e, S'.moment k (o.shape s) (o.line F) p e = o.mom • (o.R *ᵥ S.moment k s F p e)
  unit : ∀ v, S'.unit (o.mom • (o.R *ᵥ v)) = o.R *ᵥ S.unit v
  lineF : ∀ k s wt, (∀ j, (S'.lineF k (o.shape s) fun j => o.water (wt j)).1 j = o.acc ((S.lineF k s wt).1 j)) ∧
    (S'.lineF k (o.shape s) fun j => o.water (wt j)).2 = o.line (S.lineF k s wt).2
  pointF : ∀ i x v w l, S'.pointF i (o.place x) (o.vel v) (o.water w) (l.map o.got) = o.point (S.pointF i x v w l)
  pointA : ∀ F, S'.pointA (o.point F) = o.acc (S.pointA F)
  rodF : ∀ i < S.nr, ∀ q q' w a r rd wt lA lB, SameTurn o S S' i q q' → o.fit a →
    S'.rodF i q' (o.spin w) (o.R *ᵥ a) (fun j => o.place (r j)) (fun j => o.vel (rd j)) (fun j => o.water (wt j)) (lA.map o.got)
      (lB.map o.got) = o.rod (S.rodF i q w a r rd wt lA lB)
  rodA : ∀ F, S'.rodA (o.rod F) = (o.acc (S.rodA F).1, o.spinAcc (S.rodA F).2)
  pinA : ∀ F a, S'.pinA (o.rod F) (o.acc a) = o.spinAcc (S.pinA F a)
  quatA : ∀ w q, S'.quatA (o.spin w) (o.turn q) = (1 / o.tim) • o.turn (S.quatA w q)
  quatB : ∀ b w q, S'.quatA (o.spin w) (o.turnB b q) = (1 / o.tim) • o.turnB b (S.quatA w q)
  bodyF : ∀ b x q v w M wt lP lR, S'.bodyF b (o.place x) (o.turnB b q) (o.vel v) (o.spin w) (o.R * M * (o.own b)ᵀ) (o.water wt)
    (lP.map fun a => (o.place a.1, o.point a.2)) (lR.map fun a => (o.place a.1, o.vel a.2.1, o.rod a.2.2)) =
    o.body (S.bodyF b x q v w M wt lP lR)
  bodyA : ∀ F, S'.bodyA (o.body F) = (o.acc (S.bodyA F).1, o.spinAcc (S.bodyA F).2)
  bodyPinA : ∀ F a, S'.bodyPinA (o.body F) (o.acc a) = o.spinAcc (S.bodyPinA F a)

/-- The motions that two callers ask for, `x` of place and velocity, are the same: at all times they put a body at the same place and
in the same attitude. -/
structure SameCourse (S S' : System Q FL FP FR FB Wt) (T : Q →ₗ[ℝ] Q) (x x' : (V × V) × (V × V)) : Prop where
  pose : ∀ t : ℝ, S'.pose (x'.1 + (o.tim * t) • x'.2) = (o.place (S.pose (x.1 + t • x.2)).1, T (S.pose (x.1 + t • x.2)).2)
  vel : x'.2.1 = o.vel x.2.1
  spin : x'.2.2 = o.spin x.2.2

/-- The same of objects whose rotation is not asked for. -/
structure SameHead (x x' : (V × V) × (V × V)) : Prop where
  place : x'.1.1 = o.place x.1.1
  vel : x'.2.1 = o.vel x.2.1

/-- What a coupled body or rod has stored of what was asked for. -/
structure SameVes (S S' : System Q FL FP FR FB Wt) (T : Q →ₗ[ℝ] Q) (v v' : (V × V) × (V × V) × (V × V)) : Prop where
  course : SameCourse o S S' T (v.1, v.2.1) (v'.1, v'.2.1)
  acc : v'.2.2 = (o.acc v.2.2.1, o.spinAcc v.2.2.2)

/-- The same of a pinned one. -/
structure SameHeads (v v' : (V × V) × (V × V) × (V × V)) : Prop where
  head : SameHead o (v.1, v.2.1) (v'.1, v'.2.1)
  acc : v'.2.2.1 = o.acc v.2.2.1

/-- A line. -/
structure ViewLine (L L' : Line FL) : Prop where
  s : L'.s = o.shape L.s
  F : L'.F = o.line L.F

/-- A point. -/
structure ViewPoint (k : Kind) (P P' : Point FP) : Prop where
  r : P'.r = o.place P.r
  rd : P'.rd = o.vel P.rd
  ves : k = .COUPLED → P'.ves = (o.place P.ves.1, o.vel P.ves.2)
  F : P'.F = o.point P.F

/-- A rod. -/
structure ViewRod (S S' : System Q FL FP FR FB Wt) (i : ℕ) (R R' : Rod Q FR) : Prop where
  pos : R'.pos = o.place R.pos
  quat : SameTurn o S S' i R.quat R'.quat
  vel : R'.vel = o.vel R.vel
  w : R'.w = o.spin R.w
  q : R'.q = o.R *ᵥ R.q
  r : ∀ j, R'.r j = o.place (R.r j)
  rd : ∀ j, R'.rd j = o.vel (R.rd j)
  acc : R'.acc = (o.acc R.acc.1, o.spinAcc R.acc.2)
  ves : S.rkind i = .COUPLED → SameVes o S S' o.turn R.ves R'.ves
  heads : S.rkind i = .CPLDPIN → SameHeads o R.ves R'.ves
  F : R'.F = o.rod R.F

/-- A body. -/
structure ViewBody (S S' : System Q FL FP FR FB Wt) (b : ℕ) (k : BKind) (B B' : Body Q FB) : Prop where
  pos : B'.pos = o.place B.pos
  quat : B'.quat = o.turnB b B.quat
  vel : B'.vel = o.vel B.vel
  w : B'.w = o.spin B.w
  orMat : B'.orMat = o.R * B.orMat * (o.own b)ᵀ
  acc : B'.acc = (o.acc B.acc.1, o.spinAcc B.acc.2)
  ves : k = .COUPLED → SameVes o S S' (o.turnB b) B.ves B'.ves
  heads : k = .CPLDPIN → SameHeads o B.ves B'.ves
  F : B'.F = o.body B.F

/-- The ground is at rest at the origin. -/
structure IsGround (B : Body Q FB) : Prop where
  pos : B.pos = 0
  vel : B.vel = 0
  w : B.w = 0
  orMat : B.orMat = 1
  ves : B.ves = 0

/-- All objects. -/
structure ViewMem (S S' : System Q FL FP FR FB Wt) (m m' : Mem Q FL FP FR FB) : Prop where
  t : m'.t = o.tim * m.t
  line : ∀ k, ViewLine o (m.line k) (m'.line k)
  point : ∀ i, ViewPoint o (S.pkind i) (m.point i) (m'.point i)
  rod : ∀ i, ViewRod o S S' i (m.rod i) (m'.rod i)
  body : ∀ b, ViewBody o S S' b (S.bkind b) (m.body b) (m'.body b)
  ground : IsGround m.ground
  ground' : IsGround m'.ground

/-- A rod or body has a state. -/
def RKind.Moves : RKind → Prop
  | .FREE | .PINNED | .CPLDPIN => True
  | _ => False

/-- A rod or body has a state. -/
def BKind.Moves : BKind → Prop
  | .FREE | .CPLDPIN => True
  | _ => False

/-- The states, of what has one. -/
structure ViewState (S : System Q FL FP FR FB Wt) (e e' : State Q) : Prop where
  line : ∀ k < S.nl, ∀ j, j + 1 < S.lineN k → e'.1 k j = (o.place (e.1 k j).1, o.vel (e.1 k j).2)
  point : ∀ i < S.np, S.pkind i = .FREE → e'.2.1 i = (o.place (e.2.1 i).1, o.vel (e.2.1 i).2)
  rod : ∀ i < S.nr, (S.rkind i).Moves → e'.2.2.1 i =
    ((o.place (e.2.2.1 i).1.1, o.turn (e.2.2.1 i).1.2), (o.vel (e.2.2.1 i).2.1, o.spin (e.2.2.1 i).2.2))
  body : ∀ b < S.nb, (S.bkind b).Moves → e'.2.2.2 b =
    ((o.place (e.2.2.2 b).1.1, o.turnB b (e.2.2.2 b).1.2), (o.vel (e.2.2.2 b).2.1, o.spin (e.2.2.2 b).2.2))

/-- The attitudes in a state, of what has one, are among those for which the formulas are known. -/
structure OkState (S : System Q FL FP FR FB Wt) (e : State Q) : Prop where
  rod : ∀ i < S.nr, (S.rkind i).Moves → o.ok (e.2.2.1 i).1.2
  body : ∀ b < S.nb, (S.bkind b).Moves → o.ok (e.2.2.2 b).1.2

/-- The axes of the rods are among those for which the formulas are known. -/
def FitMem (S : System Q FL FP FR FB Wt) (m : Mem Q FL FP FR FB) : Prop := ∀ i < S.nr, o.fit (m.rod i).q

/-- The objects, with a record of whether a state was not `good`, or the objects were not `fit` when the forces were computed. -/
def watch {K E M : Type} (good : E → Prop) (fit : M → Prop) (mc : Time.Machine K E M) : Time.Machine K E (M × Prop) :=
  ⟨fun t tl e p => (mc.update t tl e p.1, p.2 ∨ ¬ good e), fun p => ((mc.eval p.1).1, (mc.eval p.1).2, p.2 ∨ ¬ fit p.1),
    fun p => (mc.next p.1, p.2)⟩

/-- One call of `MoorDyn_Step`, with the record. -/
noncomputable def watchedCall (S : System Q FL FP FR FB Wt) (ax : Time.Aux ℝ (State Q)) (sc : Time.Scheme ℝ) (dtM0 : ℝ) (fuel : ℕ)
    (s : Time.Sim ℝ (State Q) (Mem Q FL FP FR FB × Prop)) (x : Asked) : Option (Time.Sim ℝ (State Q) (Mem Q FL FP FR FB × Prop)) :=
  let mc := watch (OkState o S) (FitMem o S) (machine S)
  if x.dt ≤ 0 then some s
  else match Time.outerStep (ε := Empty) dtM0 (Time.next mc) (fun h s => .ok (Time.stepOf mc ax sc h s)) fuel x.dt
      { s with m := (initiate S x s.m.1, s.m.2) } with
  | some (.ok e, _) => some e
  | _ => none

/-- The rates of a node or point. -/
noncomputable def View.rate (x : V × V) : V × V := (o.vel x.1, o.acc x.2)

/-- The rates of a rod or body. -/
noncomputable def View.rate6 (T : Q →ₗ[ℝ] Q) (x : (V × Q) × (V × V)) : (V × Q) × (V × V) :=
  ((o.vel x.1.1, (1 / o.tim) • T x.1.2), (o.acc x.2.1, o.spinAcc x.2.2))

/-- The rates. -/
structure ViewRate (S : System Q FL FP FR FB Wt) (e e' : State Q) : Prop where
  line : ∀ k < S.nl, ∀ j, j + 1 < S.lineN k → e'.1 k j = o.rate (e.1 k j)
  point : ∀ i < S.np, S.pkind i = .FREE → e'.2.1 i = o.rate (e.2.1 i)
  rod : ∀ i < S.nr, (S.rkind i).Moves → e'.2.2.1 i = o.rate6 o.turn (e.2.2.1 i)
  body : ∀ b < S.nb, (S.bkind b).Moves → e'.2.2.2 b = o.rate6 (o.turnB b) (e.2.2.2 b)

/-- A moment of two simulations. -/
structure ViewSim (S S' : System Q FL FP FR FB Wt) (s s' : Time.Sim ℝ (State Q) (Mem Q FL FP FR FB)) : Prop where
  t : s'.t = o.tim * s.t
  tl : s'.tl = o.tim * s.tl
  n : s'.n = s.n
  r : ViewState o S (s.r 0) (s'.r 0)
  rd : ∀ k, ViewRate o S (s.rd k) (s'.rd k)
  m : ViewMem o S S' s.m s'.m

/-- The same is asked for in a call. -/
structure ViewAsked (S S' : System Q FL FP FR FB Wt) (x x' : Asked) : Prop where
  dt : x'.dt = o.tim * x.dt
  body : ∀ b < S.nb, S.bkind b = .COUPLED → SameCourse o S S' (o.turnB b) (x.body b) (x'.body b)
  bodyPin : ∀ b < S.nb, S.bkind b = .CPLDPIN → SameHead o (x.body b) (x'.body b)
  rod : ∀ i < S.nr, S.rkind i = .COUPLED → SameCourse o S S' o.turn (x.rod i) (x'.rod i)
  rodPin : ∀ i < S.nr, S.rkind i = .CPLDPIN → SameHead o (x.rod i) (x'.rod i)
  point : ∀ i < S.np, S.pkind i = .COUPLED → x'.point i = (o.place (x.point i).1, o.vel (x.point i).2)

/-- What a scheme does to the rates of one object, and the subtraction, does not depend on how things are written down. -/
structure EachSame (E : Each Q) : Prop where
  newmark : ∀ g b x y h, E.newmark g b (o.rate x) (o.rate y) (o.tim * h) = o.rate (E.newmark g b x y h)
  newmark6 : ∀ T, o.Turns T → ∀ g b x y h, E.newmark6 g b (o.rate6 T x) (o.rate6 T y) (o.tim * h) = o.rate6 T (E.newmark6 g b x y h)
  wilson : ∀ x y ta h, E.wilson (o.rate x) (o.rate y) (o.tim * ta) (o.tim * h) = o.rate (E.wilson x y ta h)
  wilson6 : ∀ T, o.Turns T → ∀ x y ta h, E.wilson6 (o.rate6 T x) (o.rate6 T y) (o.tim * ta) (o.tim * h) = o.rate6 T (E.wilson6 x y ta h)
  ssub : ∀ x y z, E.ssub (o.place x.1, o.vel x.2) ((o.tim * z) • o.rate y) =
    (o.place (E.ssub x (z • y)).1, o.vel (E.ssub x (z • y)).2)
  ssub6 : ∀ T, o.Turns T → ∀ x y z, E.ssub6 ((o.place x.1.1, T x.1.2), (o.vel x.2.1, o.spin x.2.2)) ((o.tim * z) • o.rate6 T y) =
    ((o.place (E.ssub6 x (z • y)).1.1, T (E.ssub6 x (z • y)).1.2),
      (o.vel (E.ssub6 x (z • y)).2.1, o.spin (E.ssub6 x (z • y)).2.2))

end MD.Whole
