import Verif.Spec.Interp

/-!
# Specification of multilinear interpolation
-/

namespace MD.Waves

open MD.Interp

variable {K V : Type} [Field K] [LinearOrder K] [AddCommGroup V] [Module K V]

/-- `d` is the bilinear interpolation at `(x, y)` of the data `z i j` given at the ticks:
interpolate along x at each tick of y, and the results along y. -/
def IsBilinear (px py : List K) (z : ℕ → ℕ → V) (x y : K) (d : V) : Prop :=
  ∃ col : List V, col.length = py.length ∧
    (∀ (j : ℕ) (c : V), col[j]? = some c →
      IsInterp px ((List.range px.length).map fun i => z i j) x c) ∧
    IsInterp py col y d

/-- `d` is the trilinear interpolation at `(x, y, z)`. -/
def IsTrilinear (px py pz : List K) (u : ℕ → ℕ → ℕ → V) (x y z : K) (d : V) : Prop :=
  ∃ col : List V, col.length = pz.length ∧
    (∀ (k : ℕ) (c : V), col[k]? = some c → IsBilinear px py (fun i j => u i j k) x y c) ∧
    IsInterp pz col z d

end MD.Waves
