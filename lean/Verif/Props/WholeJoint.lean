import Verif.Model.Gear
import Verif.Props.ZeroRod

/-!
# C83: what a rod without length reads of stiff lines, in a system
-/

namespace MD.Whole

open MD.Mooring MD.Rods.Zero

/-- The bending stiffness of a line at one of its ends: constant, or moment by curvature at that end. -/
def StiffAt (L : Mooring.Line) (p : EndPt) (EI : ℝ) : Prop :=
  (L.bstiff = none ∧ EI = L.EI) ∨
    ∃ f, L.bstiff = some f ∧ Kurv L (endNode L p) ≠ 0 ∧ EI = f (Kurv L (endNode L p)) / Kurv L (endNode L p)

/-- **C83** in a system with bodies, rods, points and lines: what a rod gets of a line at each evaluation, to find its axis, is the bending
stiffness of the line at the end that is held, by the length of the segment there, in the direction of that segment. -/
theorem C83_gear (G : Gear) (k : ℕ) (s : Shape) (wt : ℕ → Water) (p : EndPt) (e : REnd) (hN : 1 ≤ (G.line k).N) (EI : ℝ)
    (hEI : StiffAt (G.lineNow k s) p EI) (hl : 100 * eps / 2 < endLen (G.lineNow k s) p) :
    G.code.moment k s (G.code.lineF k s wt).2 p e =
      (sense p (match e with | .A => .BOTTOM | .B => .TOP) * (EI / endLen (G.lineNow k s) p)) • endDir (G.lineNow k s) p := by
  have hK : G.code.moment k s (G.code.lineF k s wt).2 p e =
      (endSegmentMoment (G.lineNow k s) (Kurv (G.lineNow k s) (endNode (G.lineNow k s) p)) p
        (match e with | .A => .BOTTOM | .B => .TOP)).getD 0 := by
    cases p <;> cases e <;> rfl
  rw [hK]
  have hN' : 1 ≤ (G.lineNow k s).N := hN
  generalize G.lineNow k s = L at *
  generalize (match e with | REnd.A => EndPt.BOTTOM | REnd.B => EndPt.TOP) = rp
  rcases hEI with ⟨hb, rfl⟩ | ⟨f, hb, h0, rfl⟩
  · rw [moment_eq L _ p rp hN' hb hl]
    rfl
  · have h : endSegmentMoment L (Kurv L (endNode L p)) p rp =
        endSegmentMoment { L with bstiff := none, EI := f (Kurv L (endNode L p)) / Kurv L (endNode L p) } (Kurv L (endNode L p)) p rp := by
      generalize Kurv L (endNode L p) = K at h0
      unfold endSegmentMoment endEI
      simp only [hb, if_neg h0]
    have h2 := moment_eq { L with bstiff := none, EI := f (Kurv L (endNode L p)) / Kurv L (endNode L p) } (Kurv L (endNode L p)) p rp hN' rfl
      (by cases p <;> exact hl)
    rw [h, h2]
    cases p <;> rfl

/-- A line along the x axis with a constant bending stiffness has a stiffness at its ends. -/
example (G : Gear) (k : ℕ) (s : Shape) (h : (G.line k).bstiff = none) (p : EndPt) :
    StiffAt (G.lineNow k s) p (G.line k).EI := Or.inl ⟨h, rfl⟩

end MD.Whole
