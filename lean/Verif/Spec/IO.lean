import Verif.Model.Snapshot

/-!
# Specification of snapshot files (C01-C05)

`NormalDouble`/`SubnormalDouble` (IEEE-754 binary64 numbers, their value and bit
pattern), `FileLayout` (what a snapshot file is), and the "storable" predicates.
-/

namespace MD.IO

/-- A normal IEEE-754 binary64 number. -/
structure NormalDouble where
  neg : Bool
  e : ℤ
  m : ℕ
  e_lo : -1022 ≤ e
  e_hi : e ≤ 1023
  m_lt : m < 2 ^ 52

namespace NormalDouble
/-- its value `± 1.m · 2^e` -/
def value (d : NormalDouble) : ℚ :=
  (if d.neg then -1 else 1) * ((1 + (d.m : ℚ) / 2 ^ 52) * 2 ^ d.e)
/-- its bit pattern: sign, 11 bits of biased exponent, 52 bits of fraction -/
def bits (d : NormalDouble) : ℕ :=
  (if d.neg then 1 else 0) * 2 ^ 63 + ((d.e + 1023).toNat * 2 ^ 52 + d.m)
end NormalDouble

/-- A subnormal IEEE-754 binary64 number, `± m · 2^(-1074)`, written with its
leading one at exponent `e`: `± 1.f · 2^e` with `-1074 ≤ e < -1022`. -/
structure SubnormalDouble where
  neg : Bool
  e : ℤ
  m : ℕ
  e_lo : -1074 ≤ e
  e_hi : e < -1022
  m_lt : m < 2 ^ 52
  /-- the bits below `2^(-1074)` are zero -/
  m_dvd : 2 ^ (-1022 - e).toNat ∣ m

/-- value of a subnormal -/
def SubnormalDouble.value (d : SubnormalDouble) : ℚ :=
  (if d.neg then -1 else 1) * ((1 + (d.m : ℚ) / 2 ^ 52) * 2 ^ d.e)

/-- Numbers that a snapshot must be able to store: zero and normal doubles. -/
def Storable (x : ℚ) : Prop := x = 0 ∨ ∃ d : NormalDouble, d.value = x

/-- The factor `(1LL << 52) + 0.5f` is `2^52` (evaluated in float) or `2^52+1/2`
(exact evaluation). -/
def FactorOk (c : ℚ) : Prop := 2 ^ 52 ≤ c ∧ c ≤ 2 ^ 52 + 1 / 2

/-- What a snapshot file is: magic, two version bytes, word count, words. -/
def FileLayout (be : Bool) (major minor : Byte) (count : Word) (words : List Word)
    (file : List Byte) : Prop :=
  file = ([77, 111, 111, 114, 68, 121, 110] : List Byte) ++ [major, minor]
    ++ memBytes be count ++ words.flatMap (memBytes be)

/-- Lexicographic order of versions: `v` is at least `w`. -/
def VersionGE (major minor : Byte) (w : Version) : Prop :=
  w.major < major ∨ (w.major = major ∧ w.minor ≤ minor)

/-! ### Storable snapshots -/

/-- all components storable -/
def okV {n : ℕ} (v : Fin n → ℚ) : Prop := ∀ i, Storable (v i)
/-- all entries storable -/
def okM {n k : ℕ} (v : Fin n → Fin k → ℚ) : Prop := ∀ i, okV (v i)
/-- a vector of less than `2^32` storable elements -/
def okL {α : Type} (ok : α → Prop) (l : List α) : Prop := l.length < 2 ^ 32 ∧ ∀ a ∈ l, ok a
/-- position and quaternion storable -/
def okX (x : XYZQuat) : Prop := okV x.pos ∧ okV x.quat

/-- every number of the snapshot is storable -/
structure LineS.Ok (x : LineS) : Prop where
  t : Storable x.t
  r : okL okV x.r
  rd : okL okV x.rd
  q : okL okV x.q
  qs : okL okV x.qs
  l : okL Storable x.l
  lstr : okL Storable x.lstr
  ldstr : okL Storable x.ldstr
  Kurv : okL Storable x.Kurv
  M : okL okM x.M
  V : okL Storable x.V
  T : okL okV x.T
  Td : okL okV x.Td
  Bs : okL okV x.Bs
  W : okL okV x.W
  Dp : okL okV x.Dp
  Dq : okL okV x.Dq
  Ap : okL okV x.Ap
  Aq : okL okV x.Aq
  B : okL okV x.B
  Fnet : okL okV x.Fnet
  F : okL Storable x.F

/-- every number of the snapshot is storable -/
structure RodS.Ok (x : RodS) : Prop where
  t : Storable x.t
  r7 : okX x.r7
  v6 : okV x.v6
  r : okL okV x.r
  rd : okL okV x.rd
  q : okV x.q
  l : okL Storable x.l
  M : okL okM x.M
  V : okL Storable x.V
  FextA : okV x.FextA
  FextB : okV x.FextB
  Mext : okV x.Mext
  F6net : okV x.F6net
  M6net : okM x.M6net
  W : okL okV x.W
  Bo : okL okV x.Bo
  Pd : okL okV x.Pd
  Dp : okL okV x.Dp
  Dq : okL okV x.Dq
  Ap : okL okV x.Ap
  Aq : okL okV x.Aq
  B : okL okV x.B
  Fnet : okL okV x.Fnet
  VOF : okL Storable x.VOF
  h0 : Storable x.h0
  r_ves : okX x.r_ves
  rd_ves : okV x.rd_ves

/-- every number of the snapshot is storable -/
structure PointS.Ok (x : PointS) : Prop where
  r : okV x.r
  rd : okV x.rd
  r_ves : okV x.r_ves
  rd_ves : okV x.rd_ves
  Fnet : okV x.Fnet
  M : okM x.M

/-- every number of the snapshot is storable -/
structure BodyS.Ok (x : BodyS) : Prop where
  r7 : okX x.r7
  v6 : okV x.v6
  r_ves : okX x.r_ves
  rd_ves : okV x.rd_ves
  F6net : okV x.F6net
  M : okM x.M
  OrMat : okM x.OrMat

/-- an integrator state with one entry per object of the system, all storable -/
structure StateS.Ok (c : Counts) (s : StateS) : Prop where
  nb : s.bodies.length = c.nb
  nr : s.rods.length = c.nr
  np : s.points.length = c.np
  nl : s.lines.length = c.nl
  bodies : ∀ a ∈ s.bodies, okX a.1 ∧ okV a.2
  rods : ∀ a ∈ s.rods, okX a.1 ∧ okV a.2
  points : ∀ a ∈ s.points, okV a.1 ∧ okV a.2
  lines : ∀ a ∈ s.lines, okL okV a.1 ∧ okL okV a.2

/-- a storable integrator of a system with `c` objects -/
structure IntegS.Ok (c : Counts) (s : IntegS) : Prop where
  t : Storable s.t
  r : ∀ a ∈ s.r, a.Ok c
  rd : ∀ a ∈ s.rd, a.Ok c
  n : ∀ n, s.nSteps = some n → n < 2 ^ 32

/-- the numbers of objects of a system -/
def SysS.counts (s : SysS) : Counts :=
  ⟨s.bodies.length, s.rods.length, s.points.length, s.lines.length⟩

/-- a storable system -/
structure SysS.Ok (s : SysS) : Prop where
  npW : s.npW < 2 ^ 32
  integ : s.integ.Ok s.counts
  bodies : ∀ a ∈ s.bodies, a.Ok
  rods : ∀ a ∈ s.rods, a.Ok
  points : ∀ a ∈ s.points, a.Ok
  lines : ∀ a ∈ s.lines, a.Ok

end MD.IO
