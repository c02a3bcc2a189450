import Mathlib.Data.List.Basic

/-!
# Model of the registration of objects in an integrator

`TimeScheme::Add*`/`Remove*` and `TimeSchemeBase::Add*`/`Remove*`.  The four kinds of
objects (lines, points, rods, bodies) are handled by textually the same code; one kind
is modelled, with objects of type `O` and states of type `S`.
-/

namespace MD.Registry

/-- One kind of object in a `TimeSchemeBase<NSTATE, NDERIV>`: the registered objects
(source/Time.hpp:283-296), the states `r` and derivatives `rd`, one list per stage
(source/Time.hpp:749-753), and the calculation mask (source/Time.hpp:758-774). -/
structure Reg (O S : Type) where
  objs : List O
  r : List (List S)
  rd : List (List S)
  mask : List Bool
deriving DecidableEq

variable {O S : Type} [DecidableEq O]

/-- `AddLine`, `AddPoint`, `AddRod`, `AddBody`, source/Time.hpp:66-78 and 330-352 (resp.
99-111 and 382-402, 141-149 and 432-452, 177-185 and 482-502).  `none`: the
exception `invalid_value_error`. -/
def Reg.add (g : Reg O S) (o : O) (zero dzero : S) : Option (Reg O S) :=
  if o ∈ g.objs then none
  else some
    { objs := g.objs ++ [o], r := g.r.map (· ++ [zero]), rd := g.rd.map (· ++ [dzero]),
      mask := g.mask ++ [true] }

/-- `v.erase(v.begin() + i)`: undefined if there is no such element. -/
def erase? {α : Type} (l : List α) (i : ℕ) : Option (List α) :=
  if i < l.length then some (l.eraseIdx i) else none

/-- The loops `for (i = 0; i < r.size(); i++) r[i].lines.erase(r[i].lines.begin() + i)`,
source/Time.hpp:369-372: the loop variable hides the index of the object. -/
def eraseStages : ℕ → List (List S) → Option (List (List S))
  | _, [] => some []
  | i, l :: ls => do
    let l ← erase? l i
    let ls ← eraseStages (i + 1) ls
    return l :: ls

/-- Outcome of removing. -/
inductive Res (A : Type)
  | error
  | undefined
  | ok (a : A)
deriving DecidableEq

/-- `RemoveLine` etc., source/Time.hpp:80-97 and 361-375 (resp. 120-132 and 411-425,
156-168 and 461-475, 192-204 and 511-525). -/
def Reg.remove (g : Reg O S) (o : O) : Res (Reg O S × ℕ) :=
  if o ∈ g.objs then
    let i := g.objs.idxOf o
    match eraseStages 0 g.r, eraseStages 0 g.rd, erase? g.mask i with
    | some r, some rd, some mask => .ok (⟨g.objs.eraseIdx i, r, rd, mask⟩, i)
    | _, _, _ => .undefined
  else .error

end MD.Registry
