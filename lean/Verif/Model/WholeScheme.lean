import Verif.Model.Whole
import Mathlib.Algebra.BigOperators.Group.Finset.Basic

/-!
# Model of what the time schemes do to the states of all objects
-/

namespace MD.Whole

open MD.Mooring Matrix

variable {Q FL FP FR FB Wt : Type}

/-- What the schemes of Newmark and Wilson, the local time steps and the subtraction of states do, object by object; what they do to one object
is left open (source/State.cpp:113-177, 442-562, source/Time.cpp:98-130). -/
structure Each (Q : Type) where
  relax : ℕ → ℕ → ℝ
  newmark : ℝ → ℝ → V × V → V × V → ℝ → V × V
  newmark6 : ℝ → ℝ → (V × Q) × (V × V) → (V × Q) × (V × V) → ℝ → (V × Q) × (V × V)
  wilson : V × V → V × V → ℝ → ℝ → V × V
  wilson6 : (V × Q) × (V × V) → (V × Q) × (V × V) → ℝ → ℝ → (V × Q) × (V × V)
  ssub : V × V → V × V → V × V
  ssub6 : (V × Q) × (V × V) → (V × Q) × (V × V) → (V × Q) × (V × V)

/-- What the code does there: `pose` is `XYZQuat::fromVec6` (source/State.cpp:442-562), and the difference of the states of rods and bodies is a
sum (source/State.cpp:113-121). -/
noncomputable def Each.code [AddCommGroup Q] [Module ℝ Q] (pose : V × V → V × Q) (relax : ℕ → ℕ → ℝ) : Each Q where
  relax := relax
  newmark g b x y h := (x.1 + h • ((1 / 2 - b) • x.2 + b • y.2), (1 - g) • x.2 + g • y.2)
  newmark6 g b x y h := (x.1 + pose (h • ((1 / 2 - b) • x.2 + b • y.2)), (1 - g) • x.2 + g • y.2)
  wilson x y tau h := (x.1 + (1 / 2 * h) • ((1 - 1 / 3 * (tau / h)) • x.2 + (1 / 3 * (tau / h)) • y.2),
    (1 - 1 / 2 * (tau / h)) • x.2 + (1 / 2 * (tau / h)) • y.2)
  wilson6 x y tau h := (x.1 + pose ((1 / 2 * h) • ((1 - 1 / 3 * (tau / h)) • x.2 + (1 / 3 * (tau / h)) • y.2)),
    (1 - 1 / 2 * (tau / h)) • x.2 + (1 / 2 * (tau / h)) • y.2)
  ssub x y := x - y
  ssub6 x y := x + y

/-- Which lines, points, rods and bodies are evaluated in a local time step. -/
structure Fresh where
  line : ℕ → Bool
  point : ℕ → Bool
  rod : ℕ → Bool
  body : ℕ → Bool

/-- The operations of the schemes on the states of all objects. -/
def Each.aux (E : Each Q) (conv : State Q × State Q → State Q × State Q → Bool) (fr : Fresh) : Time.Aux ℝ (State Q) where
  relax := E.relax
  conv := conv
  newmark g b x y h := (fun k j => E.newmark g b (x.1 k j) (y.1 k j) h, fun i => E.newmark g b (x.2.1 i) (y.2.1 i) h,
    fun i => E.newmark6 g b (x.2.2.1 i) (y.2.2.1 i) h, fun i => E.newmark6 g b (x.2.2.2 i) (y.2.2.2 i) h)
  wilson x y tau h := (fun k j => E.wilson (x.1 k j) (y.1 k j) tau h, fun i => E.wilson (x.2.1 i) (y.2.1 i) tau h,
    fun i => E.wilson6 (x.2.2.1 i) (y.2.2.1 i) tau h, fun i => E.wilson6 (x.2.2.2 i) (y.2.2.2 i) tau h)
  sel x y := (fun k => if fr.line k then x.1 k else y.1 k, fun i => if fr.point i then x.2.1 i else y.2.1 i,
    fun i => if fr.rod i then x.2.2.1 i else y.2.2.1 i, fun i => if fr.body i then x.2.2.2 i else y.2.2.2 i)
  ssub x y := (fun k j => E.ssub (x.1 k j) (y.1 k j), fun i => E.ssub (x.2.1 i) (y.2.1 i),
    fun i => E.ssub6 (x.2.2.1 i) (y.2.2.1 i), fun i => E.ssub6 (x.2.2.2 i) (y.2.2.2 i))

/-- The sum of the absolute values of the residues, source/Time.hpp:1344-1385 `fill`: of the accelerations of all inner nodes, points, rods
and bodies.  A pair has `rd[org]` and `rd[dst]`. -/
def residues (S : System Q FL FP FR FB Wt) (g : State Q × State Q) : ℝ :=
  let f := fun a b => Moored.absSum (b - a)
  ∑ k ∈ Finset.range S.nl, ∑ j ∈ Finset.range (S.lineN k - 1), f (g.1.1 k j).2 (g.2.1 k j).2 +
    ∑ i ∈ Finset.range S.np, f (g.1.2.1 i).2 (g.2.2.1 i).2 +
    ∑ i ∈ Finset.range S.nr, (f (g.1.2.2.1 i).2.1 (g.2.2.2.1 i).2.1 + f (g.1.2.2.1 i).2.2 (g.2.2.2.1 i).2.2) +
    ∑ b ∈ Finset.range S.nb, (f (g.1.2.2.2 b).2.1 (g.2.2.2.2 b).2.1 + f (g.1.2.2.2 b).2.2 (g.2.2.2.2 b).2.2)

/-- source/Time.hpp:1331-1336 `ndof`. -/
def ndof (S : System Q FL FP FR FB Wt) : ℕ := 3 * S.np + 6 * (S.nb + S.nr) + ∑ k ∈ Finset.range S.nl, 3 * (S.lineN k - 1)

open Classical in
/-- source/Time.hpp:1286-1290 `converged`, with the first residue `_g0`.  In the code the mean of nothing and 0/0 are not numbers, and not
below anything. -/
noncomputable def converged (S : System Q FL FP FR FB Wt) (tol rel : ℝ) (g0 g : State Q × State Q) : Bool :=
  let mean := fun g => residues S g / ndof S
  decide (ndof S ≠ 0 ∧ (mean g < tol ∨ mean g0 ≠ 0 ∧ mean g / mean g0 < rel))

end MD.Whole
