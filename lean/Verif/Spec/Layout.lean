import Verif.Model.Layout
import Mathlib.Algebra.BigOperators.Group.List.Basic

/-!
# Specification of the layout of the exchange arrays

Bodies first, then rods, then points; 6 entries for each `COUPLED` body or rod, 3 for
the others; consecutive, starting at 0.
-/

namespace MD.Layout

/-- entries used by a body or rod -/
def Kind.width : Kind → ℕ
  | .coupled => 6
  | .pinned => 3

/-- widths of all the objects in order -/
def Coupled.widths (c : Coupled) : List ℕ :=
  c.bodies.map Kind.width ++ c.rods.map Kind.width ++ List.replicate c.points 3

/-- number of entries used -/
def Coupled.total (c : Coupled) : ℕ := c.widths.sum

/-- first entry of object `k` -/
def Coupled.offset (c : Coupled) (k : ℕ) : ℕ := (c.widths.take k).sum

/-- The blocks of the objects are consecutive, start at 0 and end at the total: they
are disjoint and cover a prefix. -/
theorem offset_zero (c : Coupled) : c.offset 0 = 0 := rfl

theorem offset_succ (c : Coupled) (k w : ℕ) (h : c.widths[k]? = some w) :
    c.offset (k + 1) = c.offset k + w := by
  unfold Coupled.offset
  rw [List.take_add_one, h]
  simp

theorem offset_end (c : Coupled) : c.offset c.widths.length = c.total := by
  simp [Coupled.offset, Coupled.total]

end MD.Layout
