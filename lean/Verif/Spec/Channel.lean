import Verif.Model.Channel

/-!
# What the documentation says about output channels

The table of docs/inputs.rst:674-690 and the notes below it.
-/

namespace MD.Channel

open MD.Text (Str)

/-- The quantities of the table; the number is the axis. -/
inductive Quant
  | position (a : Fin 3)
  | rotation (a : Fin 3)
  | velocity (a : Fin 3)
  | rotVelocity (a : Fin 3)
  | acceleration (a : Fin 3)
  | rotAcceleration (a : Fin 3)
  | force (a : Fin 3)
  | moment (a : Fin 3)
  | netForce
  | endA
  | endB
  | submergence
deriving DecidableEq

/-- First column of the table. -/
def suffixes : List (Str × Quant) :=
  [(['P', 'X'], .position 0), (['P', 'Y'], .position 1), (['P', 'Z'], .position 2),
   (['R', 'X'], .rotation 0), (['R', 'Y'], .rotation 1), (['R', 'Z'], .rotation 2),
   (['V', 'X'], .velocity 0), (['V', 'Y'], .velocity 1), (['V', 'Z'], .velocity 2),
   (['R', 'V', 'X'], .rotVelocity 0), (['R', 'V', 'Y'], .rotVelocity 1),
   (['R', 'V', 'Z'], .rotVelocity 2),
   (['A', 'X'], .acceleration 0), (['A', 'Y'], .acceleration 1), (['A', 'Z'], .acceleration 2),
   (['R', 'A', 'X'], .rotAcceleration 0), (['R', 'A', 'Y'], .rotAcceleration 1),
   (['R', 'A', 'Z'], .rotAcceleration 2),
   (['F', 'X'], .force 0), (['F', 'Y'], .force 1), (['F', 'Z'], .force 2),
   (['M', 'X'], .moment 0), (['M', 'Y'], .moment 1), (['M', 'Z'], .moment 2),
   (['T', 'E', 'N'], .netForce), (['T'], .netForce),
   (['T', 'E', 'N', 'A'], .endA), (['T', 'E', 'N', 'B'], .endB),
   (['S', 'U', 'B'], .submergence)]

/-- Third column of the table. -/
def docUnit : Quant → Str
  | .position _ => ['(', 'm', ')']
  | .rotation _ => ['(', 'd', 'e', 'g', ')']
  | .velocity _ => ['(', 'm', '/', 's', ')']
  | .rotVelocity _ => ['(', 'd', 'e', 'g', '/', 's', ')']
  | .acceleration _ => ['(', 'm', '/', 's', '2', ')']
  | .rotAcceleration _ => ['(', 'd', 'e', 'g', '/', 's', '2', ')']
  | .force _ => ['(', 'N', ')']
  | .moment _ => ['(', 'N', 'm', ')']
  | .netForce => ['(', 'N', ')']
  | .endA => ['(', 'N', ')']
  | .endB => ['(', 'N', ')']
  | .submergence => ['(', 'f', 'r', 'a', 'c', ')']

/-- The names of the objects. -/
def prefixes : Obj → List Str
  | .line => [['L'], ['L', 'I', 'N', 'E']]
  | .point => [['P'], ['P', 'O', 'I', 'N', 'T']]
  | .rod => [['R'], ['R', 'O', 'D']]
  | .body => [['B'], ['B', 'O', 'D', 'Y']]

/-- Where on the object: `[OBJECT#][SUFFIX]`, `[OBJECT#]N#[SUFFIX]`, `[OBJECT#]NA[SUFFIX]`,
`[OBJECT#]NB[SUFFIX]`. -/
inductive Where
  | whole
  | node (n : ℕ)
  | endA
  | endB

/-- How that is written, in any case. -/
inductive NodeWord : Where → Str → Prop
  | whole : NodeWord .whole []
  | node (w ds : Str) (hw : MD.Text.upper w = ['N'])
      (hd : ∀ c ∈ ds, MD.Text.isDigit c = true) (h0 : ds ≠ []) (hn : MD.Text.natOf ds < 2 ^ 31) :
      NodeWord (.node (MD.Text.natOf ds)) (w ++ ds)
  | endA (w : Str) (hw : MD.Text.upper w = ['N', 'A']) : NodeWord .endA w
  | endB (w : Str) (hw : MD.Text.upper w = ['N', 'B']) : NodeWord .endB w

/-- Is the cell of the table filled for this object as a whole, or for its nodes? -/
def documented : Obj → Where → Quant → Bool
  | .line, _, .position _ | .line, _, .velocity _ | .line, _, .force _ | .line, _, .netForce => true
  | .line, .whole, .endA | .line, .whole, .endB => true
  | .rod, _, .position _ | .rod, _, .velocity _ | .rod, _, .force _ => true
  | .rod, .whole, .rotation a | .rod, .whole, .rotVelocity a | .rod, .whole, .rotAcceleration a =>
    decide (a ≠ 2)
  | .rod, .whole, .acceleration _ | .rod, .whole, .moment _ | .rod, .whole, .endA
  | .rod, .whole, .endB | .rod, .whole, .submergence => true
  | .body, .whole, .endA | .body, .whole, .endB | .body, .whole, .submergence => false
  | .body, .whole, _ => true
  | .point, .whole, .position _ | .point, .whole, .velocity _ | .point, .whole, .acceleration _
  | .point, .whole, .force _ | .point, .whole, .netForce => true
  | _, _, _ => false

/-- The node meant, on an object of `N` segments; `whole` is end A for a line. -/
def Where.index (N : ℕ) : Where → ℕ
  | .whole => 0
  | .node n => n
  | .endA => 0
  | .endB => N

variable {K : Type} [Field K]

/-- The quantity of a line at a node. Tension: the net force at an end, the mean tension of
the adjacent segments inside (note 3). -/
def docLine (s : Sys K) (l : LineObj K) (w : Where) (q : Quant) : Option K :=
  let n := w.index l.N
  if n ≤ l.N then
    match q with
    | .position a => (l.r[n]?).map (· a)
    | .velocity a => (l.rd[n]?).map (· a)
    | .force a => (l.force[n]?).map (· a)
    | .netForce => if n = 0 ∨ n = l.N then (l.force[n]?).map s.norm else (l.ten[n]?).map s.norm
    | .endA => (l.force[0]?).map s.norm
    | .endB => (l.force[l.N]?).map s.norm
    | _ => none
  else none

/-- The quantity of a rod, as a whole or at a node. -/
def docRod (s : Sys K) (d : RodObj K) (w : Where) (q : Quant) : Option K :=
  match w, q with
  | .whole, .position a => some (d.pos a)
  | .whole, .velocity a => some (d.v6 (Fin.castAdd 3 a))
  | .whole, .force a => some (d.net (Fin.castAdd 3 a))
  | .whole, .moment a => some (d.net (Fin.natAdd 3 a))
  | .whole, .rotation a => if a = 0 then some (d.roll * s.deg) else some (d.pitch * s.deg)
  | .whole, .rotVelocity a => some (d.v6 (Fin.natAdd 3 a) * s.deg)
  | .whole, .acceleration a => some (d.acc6 (Fin.castAdd 3 a))
  | .whole, .rotAcceleration a => some (d.acc6 (Fin.natAdd 3 a) * s.deg)
  | .whole, .endA => some (s.norm d.extA)
  | .whole, .endB => some (s.norm d.extB)
  | .whole, .submergence => some (d.vof.sum / (d.vof.length : K))
  | w, .position a => (d.r[w.index d.N]?).map (· a)
  | w, .velocity a => (d.rd[w.index d.N]?).map (· a)
  | w, .force a => (d.force[w.index d.N]?).map (· a)
  | _, _ => none

/-- The quantity of a body. -/
def docBody (s : Sys K) (b : BodyObj K) : Quant → Option K
  | .position a => some (b.pos a)
  | .rotation a => some (s.deg * b.euler a)
  | .velocity a => some (b.v6 (Fin.castAdd 3 a))
  | .rotVelocity a => some (b.v6 (Fin.natAdd 3 a) * s.deg)
  | .acceleration a => some (b.a6 (Fin.castAdd 3 a))
  | .rotAcceleration a => some (b.a6 (Fin.natAdd 3 a) * s.deg)
  | .force a => some (b.net (Fin.castAdd 3 a))
  | .moment a => some (b.net (Fin.natAdd 3 a))
  | .netForce => some (s.norm fun a => b.f6 (Fin.castAdd 3 a))
  | _ => none

/-- The quantity of a point. -/
def docPoint (s : Sys K) (p : PointObj K) : Quant → Option K
  | .position a => some (p.r a)
  | .velocity a => some (p.rd a)
  | .acceleration a => some (p.acc a)
  | .force a => some (p.force a)
  | .netForce => some (s.norm p.force)
  | _ => none

/-- The value meant by a documented word for the object number `id` (from 1). -/
def docValue (s : Sys K) (o : Obj) (id : ℕ) (w : Where) (q : Quant) : Option K :=
  if documented o w q = false ∨ id = 0 then none
  else match o with
    | .line => (s.lines[id - 1]?).bind fun l => docLine s l w q
    | .point => (s.points[id - 1]?).bind fun p => docPoint s p q
    | .rod => (s.rods[id - 1]?).bind fun d => docRod s d w q
    | .body => (s.bodies[id - 1]?).bind fun b => docBody s b q

end MD.Channel
