import Verif.Model.IO

/-!
# Model of the snapshots of the objects

`Serialize`/`Deserialize` of lines, rods, points, bodies, time integrators and
of the whole system.  The structures contain exactly the members that the C++
functions write; what is not written is discussed in `Verif.Props.IO`.
-/

namespace MD.IO

/-- Members of `Line` written by `Line::Serialize` (source/Line.hpp). -/
structure LineS where
  t : ℚ
  r : List Vec
  rd : List Vec
  q : List Vec
  qs : List Vec
  l : List ℚ
  lstr : List ℚ
  ldstr : List ℚ
  Kurv : List ℚ
  M : List Mat
  V : List ℚ
  T : List Vec
  Td : List Vec
  Bs : List Vec
  W : List Vec
  Dp : List Vec
  Dq : List Vec
  Ap : List Vec
  Aq : List Vec
  B : List Vec
  Fnet : List Vec
  F : List ℚ

/-- Members of `Rod` written by `Rod::Serialize` (source/Rod.hpp). -/
structure RodS where
  t : ℚ
  r7 : XYZQuat
  v6 : Vec6
  r : List Vec
  rd : List Vec
  q : Vec
  l : List ℚ
  M : List Mat
  V : List ℚ
  FextA : Vec
  FextB : Vec
  Mext : Vec
  F6net : Vec6
  M6net : Mat6
  W : List Vec
  Bo : List Vec
  Pd : List Vec
  Dp : List Vec
  Dq : List Vec
  Ap : List Vec
  Aq : List Vec
  B : List Vec
  Fnet : List Vec
  VOF : List ℚ
  h0 : ℚ
  r_ves : XYZQuat
  rd_ves : Vec6

/-- Members of `Point` written by `Point::Serialize` (source/Point.hpp). -/
structure PointS where
  r : Vec
  rd : Vec
  r_ves : Vec
  rd_ves : Vec
  Fnet : Vec
  M : Mat

/-- Members of `Body` written by `Body::Serialize` (source/Body.hpp). -/
structure BodyS where
  r7 : XYZQuat
  v6 : Vec6
  r_ves : XYZQuat
  rd_ves : Vec6
  F6net : Vec6
  M : Mat6
  OrMat : Mat

section
variable (g : Cfg)

/-- `Line::Serialize`, source/Line.cpp:1371-1421. -/
def LineS.ser (x : LineS) : List Word :=
  serReal g x.t ++ serVecs g x.r ++ serVecs g x.rd ++ serVecs g x.q ++ serVecs g x.qs
    ++ serReals g x.l ++ serReals g x.lstr ++ serReals g x.ldstr ++ serReals g x.Kurv
    ++ serMats g x.M ++ serReals g x.V ++ serVecs g x.T ++ serVecs g x.Td ++ serVecs g x.Bs
    ++ serVecs g x.W ++ serVecs g x.Dp ++ serVecs g x.Dq ++ serVecs g x.Ap ++ serVecs g x.Aq
    ++ serVecs g x.B ++ serVecs g x.Fnet ++ serReals g x.F

/-- `Line::Deserialize`, source/Line.cpp:1423-1451. -/
def LineS.rd' : Rd LineS :=
  Rd.bind (rdReal g) fun t =>
  Rd.bind (rdVecs g) fun r =>
  Rd.bind (rdVecs g) fun rd =>
  Rd.bind (rdVecs g) fun q =>
  Rd.bind (rdVecs g) fun qs =>
  Rd.bind (rdReals g) fun l =>
  Rd.bind (rdReals g) fun lstr =>
  Rd.bind (rdReals g) fun ldstr =>
  Rd.bind (rdReals g) fun Kurv =>
  Rd.bind (rdMats g) fun M =>
  Rd.bind (rdReals g) fun V =>
  Rd.bind (rdVecs g) fun T =>
  Rd.bind (rdVecs g) fun Td =>
  Rd.bind (rdVecs g) fun Bs =>
  Rd.bind (rdVecs g) fun W =>
  Rd.bind (rdVecs g) fun Dp =>
  Rd.bind (rdVecs g) fun Dq =>
  Rd.bind (rdVecs g) fun Ap =>
  Rd.bind (rdVecs g) fun Aq =>
  Rd.bind (rdVecs g) fun B =>
  Rd.bind (rdVecs g) fun Fnet =>
  Rd.bind (rdReals g) fun F =>
  Rd.pure { t, r, rd, q, qs, l, lstr, ldstr, Kurv, M, V, T, Td, Bs, W, Dp, Dq, Ap, Aq, B,
            Fnet, F }

/-- `Rod::Serialize`, source/Rod.cpp:1413-1472. -/
def RodS.ser (x : RodS) : List Word :=
  serReal g x.t ++ serXQ g x.r7 ++ serV6 g x.v6 ++ serVecs g x.r ++ serVecs g x.rd
    ++ serV3 g x.q ++ serReals g x.l ++ serMats g x.M ++ serReals g x.V ++ serV3 g x.FextA
    ++ serV3 g x.FextB ++ serV3 g x.Mext ++ serV6 g x.F6net ++ serM6 g x.M6net
    ++ serVecs g x.W ++ serVecs g x.Bo ++ serVecs g x.Pd ++ serVecs g x.Dp ++ serVecs g x.Dq
    ++ serVecs g x.Ap ++ serVecs g x.Aq ++ serVecs g x.B ++ serVecs g x.Fnet
    ++ serReals g x.VOF ++ serReal g x.h0 ++ serXQ g x.r_ves ++ serV6 g x.rd_ves

/-- `Rod::Deserialize`, source/Rod.cpp:1474-1507. -/
def RodS.rd' : Rd RodS :=
  Rd.bind (rdReal g) fun t =>
  Rd.bind (rdXQ g) fun r7 =>
  Rd.bind (rdV6 g) fun v6 =>
  Rd.bind (rdVecs g) fun r =>
  Rd.bind (rdVecs g) fun rd =>
  Rd.bind (rdV3 g) fun q =>
  Rd.bind (rdReals g) fun l =>
  Rd.bind (rdMats g) fun M =>
  Rd.bind (rdReals g) fun V =>
  Rd.bind (rdV3 g) fun FextA =>
  Rd.bind (rdV3 g) fun FextB =>
  Rd.bind (rdV3 g) fun Mext =>
  Rd.bind (rdV6 g) fun F6net =>
  Rd.bind (rdM6 g) fun M6net =>
  Rd.bind (rdVecs g) fun W =>
  Rd.bind (rdVecs g) fun Bo =>
  Rd.bind (rdVecs g) fun Pd =>
  Rd.bind (rdVecs g) fun Dp =>
  Rd.bind (rdVecs g) fun Dq =>
  Rd.bind (rdVecs g) fun Ap =>
  Rd.bind (rdVecs g) fun Aq =>
  Rd.bind (rdVecs g) fun B =>
  Rd.bind (rdVecs g) fun Fnet =>
  Rd.bind (rdReals g) fun VOF =>
  Rd.bind (rdReal g) fun h0 =>
  Rd.bind (rdXQ g) fun r_ves =>
  Rd.bind (rdV6 g) fun rd_ves =>
  Rd.pure { t, r7, v6, r, rd, q, l, M, V, FextA, FextB, Mext, F6net, M6net, W, Bo, Pd, Dp, Dq,
            Ap, Aq, B, Fnet, VOF, h0, r_ves, rd_ves }

/-- `Point::Serialize`, source/Point.cpp:385-404. -/
def PointS.ser (x : PointS) : List Word :=
  serV3 g x.r ++ serV3 g x.rd ++ serV3 g x.r_ves ++ serV3 g x.rd_ves ++ serV3 g x.Fnet
    ++ serM3 g x.M

/-- `Point::Deserialize`, source/Point.cpp:406-418. -/
def PointS.rd' : Rd PointS :=
  Rd.bind (rdV3 g) fun r =>
  Rd.bind (rdV3 g) fun rd =>
  Rd.bind (rdV3 g) fun r_ves =>
  Rd.bind (rdV3 g) fun rd_ves =>
  Rd.bind (rdV3 g) fun Fnet =>
  Rd.bind (rdM3 g) fun M =>
  Rd.pure { r, rd, r_ves, rd_ves, Fnet, M }

/-- `Body::Serialize`, source/Body.cpp:657-678. -/
def BodyS.ser (x : BodyS) : List Word :=
  serXQ g x.r7 ++ serV6 g x.v6 ++ serXQ g x.r_ves ++ serV6 g x.rd_ves ++ serV6 g x.F6net
    ++ serM6 g x.M ++ serM3 g x.OrMat

/-- `Body::Deserialize`, source/Body.cpp:680-693. -/
def BodyS.rd' : Rd BodyS :=
  Rd.bind (rdXQ g) fun r7 =>
  Rd.bind (rdV6 g) fun v6 =>
  Rd.bind (rdXQ g) fun r_ves =>
  Rd.bind (rdV6 g) fun rd_ves =>
  Rd.bind (rdV6 g) fun F6net =>
  Rd.bind (rdM6 g) fun M =>
  Rd.bind (rdM3 g) fun OrMat =>
  Rd.pure { r7, v6, r_ves, rd_ves, F6net, M, OrMat }

end

/-- One `MoorDynState` (source/State.hpp): bodies, rods, points, lines, each a
pair (position, velocity). -/
structure StateS where
  bodies : List (XYZQuat × Vec6)
  rods : List (XYZQuat × Vec6)
  points : List (Vec × Vec)
  lines : List (List Vec × List Vec)

/-- The members of a time scheme that are written: time, states `r`, derivatives
`rd` (a `DMoorDynStateDt` has the same layout: velocity then acceleration), and,
for Adams-Bashforth schemes only, `n_steps`. -/
structure IntegS where
  t : ℚ
  r : List StateS
  rd : List StateS
  nSteps : Option ℕ

/-- The whole system, source/MoorDyn2.hpp. -/
structure SysS where
  npW : ℕ
  integ : IntegS
  bodies : List BodyS
  rods : List RodS
  points : List PointS
  lines : List LineS

section
variable (g : Cfg)

/-- (position, velocity) of a body or rod state, source/Time.hpp:610-621. -/
def serXV (x : XYZQuat × Vec6) : List Word := serXQ g x.1 ++ serV6 g x.2
/-- source/Time.hpp:682-689 -/
def rdXV : Rd (XYZQuat × Vec6) :=
  Rd.bind (rdXQ g) fun a => Rd.bind (rdV6 g) fun b => Rd.pure (a, b)
/-- (position, velocity) of a point state, source/Time.hpp:622-627. -/
def serPV (x : Vec × Vec) : List Word := serV3 g x.1 ++ serV3 g x.2
/-- source/Time.hpp:690-693 -/
def rdPV : Rd (Vec × Vec) :=
  Rd.bind (rdV3 g) fun a => Rd.bind (rdV3 g) fun b => Rd.pure (a, b)
/-- (positions, velocities) of a line state, source/Time.hpp:628-633. -/
def serLV (x : List Vec × List Vec) : List Word := serVecs g x.1 ++ serVecs g x.2
/-- source/Time.hpp:694-697 -/
def rdLV : Rd (List Vec × List Vec) :=
  Rd.bind (rdVecs g) fun a => Rd.bind (rdVecs g) fun b => Rd.pure (a, b)

/-- One iteration of the `substep` loops of `TimeSchemeBase::Serialize`,
source/Time.hpp:609-634 (and 635-660 for the derivatives). -/
def StateS.ser (s : StateS) : List Word :=
  s.bodies.flatMap (serXV g) ++ s.rods.flatMap (serXV g) ++ s.points.flatMap (serPV g)
    ++ s.lines.flatMap (serLV g)

/-- Number of objects of a system: known from the input file, not stored. -/
structure Counts where
  nb : ℕ
  nr : ℕ
  np : ℕ
  nl : ℕ

/-- One iteration of the loops of `TimeSchemeBase::Deserialize`,
source/Time.hpp:681-698 (699-716). -/
def StateS.rd' (c : Counts) : Rd StateS :=
  Rd.bind (rdRep (rdXV g) c.nb) fun bodies =>
  Rd.bind (rdRep (rdXV g) c.nr) fun rods =>
  Rd.bind (rdRep (rdPV g) c.np) fun points =>
  Rd.bind (rdRep (rdLV g) c.nl) fun lines =>
  Rd.pure { bodies, rods, points, lines }

/-- `TimeSchemeBase::Serialize`, source/Time.hpp:598-663, and
`ABScheme::Serialize`, source/Time.hpp:1082-1089. -/
def IntegS.ser (s : IntegS) : List Word :=
  serReal g s.t ++ s.r.flatMap (StateS.ser g) ++ s.rd.flatMap (StateS.ser g)
    ++ (match s.nSteps with | none => [] | some n => serNat g n)

/-- `TimeSchemeBase::Deserialize`, source/Time.hpp:672-719, with `NSTATE = ns`,
`NDERIV = nd`, and `ABScheme::Deserialize` (source/Time.hpp:1098-1106, `ab`).
`n_steps = n` truncates to 32 bits. -/
def IntegS.rd' (c : Counts) (ns nd : ℕ) (ab : Bool) : Rd IntegS :=
  Rd.bind (rdReal g) fun t =>
  Rd.bind (rdRep (StateS.rd' g c) ns) fun r =>
  Rd.bind (rdRep (StateS.rd' g c) nd) fun rd =>
  if ab then Rd.bind (rdNat g) fun n => Rd.pure { t, r, rd, nSteps := some (n % 2 ^ 32) }
  else Rd.pure { t, r, rd, nSteps := none }

/-- `MoorDyn::Serialize`, source/MoorDyn2.cpp:749-778. -/
def SysS.ser (s : SysS) : List Word :=
  serNat g s.npW ++ s.integ.ser g ++ s.bodies.flatMap (BodyS.ser g)
    ++ s.rods.flatMap (RodS.ser g) ++ s.points.flatMap (PointS.ser g)
    ++ s.lines.flatMap (LineS.ser g)

/-- `MoorDyn::Deserialize`, source/MoorDyn2.cpp:780-804.  `npW = n` truncates to
32 bits (`unsigned int npW`). The loops run over the objects of the system that
is loading: `c`; `ns`, `nd`, `ab` describe its time scheme. -/
def SysS.rd' (c : Counts) (ns nd : ℕ) (ab : Bool) : Rd SysS :=
  Rd.bind (rdNat g) fun n =>
  Rd.bind (IntegS.rd' g c ns nd ab) fun integ =>
  Rd.bind (rdRep (BodyS.rd' g) c.nb) fun bodies =>
  Rd.bind (rdRep (RodS.rd' g) c.nr) fun rods =>
  Rd.bind (rdRep (PointS.rd' g) c.np) fun points =>
  Rd.bind (rdRep (LineS.rd' g) c.nl) fun lines =>
  Rd.pure { npW := n % 2 ^ 32, integ, bodies, rods, points, lines }

end

/-- Result of `MoorDyn_Load`. -/
inductive LoadResult (σ : Type)
  /-- error reported; the second argument is the state of the system afterwards -/
  | err (e : LoadErr) (s : σ)
  /-- success -/
  | ok (s : σ)
  /-- read outside the buffer: undefined behaviour -/
  | ub

/-- `IO::Load`, source/IO.cpp:238-305, on a system `old` whose reader is `rd`.
The final comparison `data + length != end` (line 297) is on byte addresses,
i.e. modulo `2^64` bytes: `length*8 = 8 * words read` modulo `2^64`. -/
def load {σ : Type} (be : Bool) (v : Version) (rd : Rd σ) (old : σ) (file : List Byte) :
    LoadResult σ :=
  match loadHeader be v file with
  | .error e => .err e old
  | .ok (length, ws) =>
    match rd ws with
    | none => .ub
    | some (new, rest) =>
      if length.val * 8 % W64 = (ws.length - rest.length) * 8 then .ok new
      else .err .mem new

/-- A line with the members behind the length queries that `Line::Serialize`
(source/Line.cpp:1371-1421) does not write: `UnstrLen`, `UnstrLen0`, `UnstrLend`
(source/Line.hpp:155-166) and the cross section `A`, number of segments `N`. -/
structure LineFull where
  snap : LineS
  N : ℕ
  A : ℚ
  unstrLen : ℚ
  unstrLen0 : ℚ
  unstrLend : ℚ

/-- `Line::setUnstretchedLength`, source/Line.hpp:375-382 (the loop runs over the
`N` segments, that is all the elements of `l` and `V`). -/
def LineFull.setLen (x : LineFull) (len : ℚ) : LineFull :=
  { x with
    unstrLen := len
    snap := { x.snap with
      l := List.replicate x.N (len / x.N)
      V := List.replicate x.N (len / x.N * x.A) } }

/-- `Line::setUnstretchedLengthVel`, source/Line.hpp:388-391. -/
def LineFull.setVel (x : LineFull) (v : ℚ) : LineFull := { x with unstrLend := v }

/-- `Line::Deserialize`, source/Line.cpp:1423-1451, on a line: only the members
of the snapshot change. -/
def LineFull.load (g : Cfg) (x : LineFull) (ws : List Word) : Option (LineFull × List Word) :=
  match LineS.rd' g ws with
  | none => none
  | some (s, rest) => some ({ x with snap := s }, rest)

end MD.IO
