import Verif.Lemmas.Interp
import Mathlib.Data.Rat.Defs
import Mathlib.Algebra.Order.Ring.Rat
import Mathlib.Tactic.NormNum
import Mathlib.Algebra.Module.Rat

/-!
# Property C21: one-dimensional interpolation
-/

set_option linter.unusedSimpArgs false
set_option linter.unusedSectionVars false

namespace MD.Interp

variable {K V : Type} [Field K] [LinearOrder K] [IsStrictOrderedRing K] [AddCommGroup V] [Module K V]

/-- C21: with a strictly increasing table of any size, the evaluation at any point never
leaves the table and gives the piecewise linear interpolant extended by constants. -/
theorem C21_scalar (xp : List K) (yp : List V) (hinc : xp.Pairwise (· < ·))
    (hlen : yp.length = xp.length) (hne : xp ≠ []) (x : K) :
    ∃ y, interp xp yp x = some y ∧ IsInterp xp yp x y := by
  by_cases h1 : yp.length = 1
  · unfold interp
    rw [if_pos h1]
    obtain ⟨b, hb⟩ := List.length_eq_one_iff.mp h1
    obtain ⟨a, ha⟩ := List.length_eq_one_iff.mp (hlen ▸ h1)
    subst ha hb
    refine ⟨b, rfl, ⟨?_, ?_, ?_⟩⟩
    · intro a' b' _ h _; simpa using h
    · intro a' b' _ h _; simpa using h
    · intro i _ b' _ _ _ h; simp at h
  · have hpos : 0 < xp.length := List.length_pos_iff.mpr hne
    have hn : 2 ≤ xp.length := by omega
    obtain ⟨j, f, hj, e, hj1, hf0, hf1, hx⟩ := interpFactor_one xp hinc hn x
    refine ⟨yp[j - 1]'(by omega) + f • (yp[j]'(by omega) - yp[j - 1]'(by omega)), ?_, ?_⟩
    · unfold interp
      rw [if_neg h1, e]
      simp only [Option.bind_eq_bind, Option.bind_some, valueAt, Option.pure_def]
      rw [if_neg (by omega), List.getElem?_eq_getElem (by omega), List.getElem?_eq_getElem (by omega)]
      rfl
    · exact chord_value xp yp hinc hlen j f hj hj1 hf0 hf1 x hx

/-- Tabulated abscissae give the tabulated values. -/
theorem C21_tabulated (xp : List K) (yp : List V) (hinc : xp.Pairwise (· < ·))
    (hlen : yp.length = xp.length) (i : ℕ) (a : K) (b : V) (ha : xp[i]? = some a)
    (hb : yp[i]? = some b) : interp xp yp a = some b := by
  obtain ⟨hi, ha'⟩ := List.getElem?_eq_some_iff.mp ha
  obtain ⟨hi', hb'⟩ := List.getElem?_eq_some_iff.mp hb
  have hne : xp ≠ [] := by intro h; rw [h] at hi; simp at hi
  obtain ⟨y, e, hy⟩ := C21_scalar xp yp hinc hlen hne a
  rw [e]
  congr 1
  by_cases hlast : i + 1 < xp.length
  · have := hy.chord i a (xp[i + 1]) b (yp[i + 1]'(by omega)) ha (List.getElem?_eq_getElem hlast) hb
      (List.getElem?_eq_getElem (by omega)) (le_refl _)
      (by rw [← ha']; exact Inc.le hinc (by omega) hlast)
    rw [sub_self, zero_smul, add_zero] at this
    have hd : xp[i + 1] - a ≠ 0 := by
      have := Inc.lt hinc (show i < i + 1 by omega) hlast
      rw [ha'] at this
      intro h; linarith
    have := congrArg (fun v => (xp[i + 1] - a)⁻¹ • v) this
    simpa only [smul_smul, inv_mul_cancel₀ hd, one_smul] using this
  · apply hy.above a b _ _ (le_refl _)
    · rw [List.getLast?_eq_getElem?, ← ha]; congr 1; omega
    · rw [List.getLast?_eq_getElem?, ← hb]; congr 1; omega

/-- Values are between the neighbouring data, hence within any bounds of the data. -/
theorem C21_between (xp yp : List K) (hinc : xp.Pairwise (· < ·)) (hlen : yp.length = xp.length)
    (hne : xp ≠ []) (x lo hi : K) (hb : ∀ v ∈ yp, lo ≤ v ∧ v ≤ hi) :
    ∃ y, interp xp yp x = some y ∧ lo ≤ y ∧ y ≤ hi ∧
      ∀ (i : ℕ) (a b c d : K), xp[i]? = some a → xp[i + 1]? = some b → yp[i]? = some c →
        yp[i + 1]? = some d → a ≤ x → x ≤ b → min c d ≤ y ∧ y ≤ max c d := by
  obtain ⟨y, e, hy⟩ := C21_scalar xp yp hinc hlen hne x
  have hin : ∀ (i : ℕ) (a b c d : K), xp[i]? = some a → xp[i + 1]? = some b → yp[i]? = some c →
        yp[i + 1]? = some d → a ≤ x → x ≤ b → min c d ≤ y ∧ y ≤ max c d := by
    intro i a b c d ha hb' hc hd hax hxb
    have hch := hy.chord i a b c d ha hb' hc hd hax hxb
    simp only [smul_eq_mul] at hch
    obtain ⟨_, ea⟩ := List.getElem?_eq_some_iff.mp ha
    obtain ⟨hi1, eb⟩ := List.getElem?_eq_some_iff.mp hb'
    have hab : a < b := by rw [← ea, ← eb]; exact Inc.lt hinc (by omega) hi1
    have hpos : 0 < b - a := by linarith
    have m1 : min c d ≤ c := min_le_left _ _
    have m2 : min c d ≤ d := min_le_right _ _
    have M1 : c ≤ max c d := le_max_left _ _
    have M2 : d ≤ max c d := le_max_right _ _
    constructor
    · by_contra hlt
      push Not at hlt
      nlinarith [mul_le_mul_of_nonneg_left m1 (show 0 ≤ b - x by linarith),
        mul_le_mul_of_nonneg_left m2 (show 0 ≤ x - a by linarith),
        mul_lt_mul_of_pos_left hlt hpos]
    · by_contra hlt
      push Not at hlt
      nlinarith [mul_le_mul_of_nonneg_left M1 (show 0 ≤ b - x by linarith),
        mul_le_mul_of_nonneg_left M2 (show 0 ≤ x - a by linarith),
        mul_lt_mul_of_pos_left hlt hpos]
  refine ⟨y, e, ?_, ?_, hin⟩ <;>
  · -- find an interval containing x
    have hpos : 0 < xp.length := List.length_pos_iff.mpr hne
    by_cases h0 : x ≤ xp[0]
    · have := hy.below (xp[0]) (yp[0]'(by omega))
        (by rw [List.head?_eq_getElem?, List.getElem?_eq_getElem hpos])
        (by rw [List.head?_eq_getElem?, List.getElem?_eq_getElem (by omega)]) h0
      rw [this]
      exact (by first | exact (hb _ (List.getElem_mem _)).1 | exact (hb _ (List.getElem_mem _)).2)
    · push Not at h0
      have : ∀ n (hn : n < xp.length), x ≤ xp[n] → lo ≤ y ∧ y ≤ hi := by
        intro n
        induction n with
        | zero => intro hn h; exact absurd h (not_le.mpr h0)
        | succ n ih =>
          intro hn h
          by_cases hx : x ≤ xp[n]
          · exact ih (by omega) hx
          · push Not at hx
            obtain ⟨b1, b2⟩ := hin n _ _ _ _ (List.getElem?_eq_getElem (by omega))
              (List.getElem?_eq_getElem hn) (List.getElem?_eq_getElem (by omega))
              (List.getElem?_eq_getElem (by omega)) (le_of_lt hx) h
            have c1 := hb (yp[n]'(by omega)) (List.getElem_mem _)
            have c2 := hb (yp[n + 1]'(by omega)) (List.getElem_mem _)
            exact ⟨le_trans (le_min c1.1 c2.1) b1, le_trans b2 (max_le c1.2 c2.2)⟩
      by_cases hl : x ≤ xp[xp.length - 1]
      · have := this _ _ hl
        first | exact this.1 | exact this.2
      · push Not at hl
        have := hy.above (xp[xp.length - 1]) (yp[yp.length - 1]'(by omega))
          (by rw [List.getLast?_eq_getElem?, List.getElem?_eq_getElem])
          (by rw [List.getLast?_eq_getElem?, List.getElem?_eq_getElem]) (le_of_lt hl)
        rw [this]
        exact (by first | exact (hb _ (List.getElem_mem _)).1 | exact (hb _ (List.getElem_mem _)).2)

/-- A table with non-decreasing values is interpolated by a non-decreasing function. -/
theorem C21_monotone (xp yp : List K) (hinc : xp.Pairwise (· < ·)) (hlen : yp.length = xp.length)
    (hne : xp ≠ []) (hmono : yp.Pairwise (· ≤ ·)) (x x' : K) (hx : x ≤ x') :
    ∃ y y', interp xp yp x = some y ∧ interp xp yp x' = some y' ∧ y ≤ y' := by
  have hpos : 0 < xp.length := List.length_pos_iff.mpr hne
  by_cases h1 : yp.length = 1
  · refine ⟨yp[0]'(by omega), yp[0]'(by omega), ?_, ?_, le_refl _⟩ <;>
    · unfold interp
      rw [if_pos h1, List.getElem?_eq_getElem]
  · have hn : 2 ≤ xp.length := by omega
    have hle : ∀ {i j : ℕ} (hij : i ≤ j) (hj : j < yp.length), yp[i]'(by omega) ≤ yp[j] := by
      intro i j hij hj
      rcases Nat.lt_or_ge i j with h | h
      · exact List.pairwise_iff_getElem.1 hmono i j (by omega) hj h
      · obtain rfl : i = j := by omega
        exact le_refl _
    obtain ⟨j, f, hj, e, hj1, hf0, hf1, hp⟩ := interpFactor_one xp hinc hn x
    obtain ⟨j', f', hj', e', hj1', hf0', hf1', hp'⟩ := interpFactor_one xp hinc hn x'
    refine ⟨yp[j - 1]'(by omega) + f • (yp[j]'(by omega) - yp[j - 1]'(by omega)),
      yp[j' - 1]'(by omega) + f' • (yp[j']'(by omega) - yp[j' - 1]'(by omega)), ?_, ?_, ?_⟩
    · unfold interp
      rw [if_neg h1, e]
      simp only [Option.bind_eq_bind, Option.bind_some, valueAt, Option.pure_def]
      rw [if_neg (by omega), List.getElem?_eq_getElem (by omega),
        List.getElem?_eq_getElem (by omega)]
      rfl
    · unfold interp
      rw [if_neg h1, e']
      simp only [Option.bind_eq_bind, Option.bind_some, valueAt, Option.pure_def]
      rw [if_neg (by omega), List.getElem?_eq_getElem (by omega),
        List.getElem?_eq_getElem (by omega)]
      rfl
    · simp only [smul_eq_mul]
      have hcl : clamp (xp[0]'(by omega)) (xp[xp.length - 1]'(by omega)) x ≤
          clamp (xp[0]'(by omega)) (xp[xp.length - 1]'(by omega)) x' :=
        max_le_max (le_refl _) (min_le_min hx (le_refl _))
      rw [← hp, ← hp'] at hcl
      have d : xp[j - 1]'(by omega) < xp[j] := Inc.lt hinc (by omega) hj
      have d' : xp[j' - 1]'(by omega) < xp[j'] := Inc.lt hinc (by omega) hj'
      have m : yp[j - 1]'(by omega) ≤ yp[j]'(by omega) := hle (by omega) _
      have m' : yp[j' - 1]'(by omega) ≤ yp[j']'(by omega) := hle (by omega) _
      rcases Nat.lt_trichotomy j j' with h | h | h
      · have : yp[j]'(by omega) ≤ yp[j' - 1]'(by omega) := hle (by omega) (by omega)
        nlinarith
      · subst h
        have : f ≤ f' := by
          by_contra hc
          push Not at hc
          nlinarith
        nlinarith
      · have hx1 : xp[j']'(by omega) ≤ xp[j - 1]'(by omega) := Inc.le hinc (by omega) (by omega)
        have hy1 : yp[j']'(by omega) ≤ yp[j - 1]'(by omega) := hle (by omega) (by omega)
        have hf : f = 0 := by
          by_contra hc
          have : 0 < f := lt_of_le_of_ne hf0 (Ne.symm hc)
          nlinarith
        have hf' : f' = 1 := by
          by_contra hc
          have : f' < 1 := lt_of_le_of_ne hf1' hc
          nlinarith
        have hxe : xp[j']'(by omega) = xp[j - 1]'(by omega) := by
          subst hf hf'
          apply le_antisymm hx1
          linarith
        have hjj : j' = j - 1 := by
          by_contra hc
          exact absurd hxe (ne_of_lt (Inc.lt hinc (by omega) (by omega)))
        subst hf hf' hjj
        linarith

/-- C21, vector version: for any non-decreasing evaluation points, of any number, the
result is the interpolant at each of them. -/
theorem C21_vector_partial (xp : List K) (yp : List V) (hinc : xp.Pairwise (· < ·))
    (hlen : yp.length = xp.length) (hn : 2 ≤ xp.length) (xs : List K) (hxs : xs.Pairwise (· ≤ ·))
    (y0 : List V) (hy0 : y0.length = xs.length) :
    ∃ ys, interpVec xp yp xs y0 = some ys ∧ ys.length = xs.length ∧
      ∀ (i : ℕ) (x : K) (y : V), xs[i]? = some x → ys[i]? = some y → IsInterp xp yp x y := by
  have main : ∀ (xs : List K) (j : ℕ), xs.Pairwise (· ≤ ·) → (startIdx xp.length j = 1 ∨
      ∃ (hs : startIdx xp.length j - 1 < xp.length), ∀ x ∈ xs, xp[startIdx xp.length j - 1] ≤ x) →
      ∃ ys, interpLoop xp yp j xs = some ys ∧ ys.length = xs.length ∧
        ∀ (i : ℕ) (x : K) (y : V), xs[i]? = some x → ys[i]? = some y → IsInterp xp yp x y := by
    intro xs
    induction xs with
    | nil => intro j _ _; exact ⟨[], rfl, rfl, by simp⟩
    | cons x xs ih =>
      intro j hs hj0
      obtain ⟨j1, f, hj, e, hj1, hf0, hf1, hx⟩ := interpFactor_spec xp hinc hn j x (by
        rcases hj0 with h | ⟨hs, h⟩
        · exact Or.inl h
        · exact Or.inr ⟨hs, h x (by simp)⟩)
      rw [List.pairwise_cons] at hs
      have hst : startIdx xp.length j1 = j1 := by
        unfold startIdx; simp only; split <;> split <;> omega
      obtain ⟨ys, ey, hl, hi⟩ := ih j1 hs.2 (by
        by_cases h1 : j1 = 1
        · left; rw [hst, h1]
        · right
          refine ⟨by omega, ?_⟩
          intro x' hx'
          simp only [hst]
          have hpos : xp[j1 - 1]'(by omega) ≤ clamp (xp[0]'(by omega)) (xp[xp.length - 1]'(by omega)) x := by
            rw [← hx]
            have := Inc.lt hinc (show j1 - 1 < j1 by omega) hj
            nlinarith
          have h0 : xp[0]'(by omega) < xp[j1 - 1]'(by omega) := Inc.lt hinc (by omega) (by omega)
          have : xp[j1 - 1]'(by omega) ≤ x := by
            unfold clamp at hpos
            rcases le_max_iff.mp hpos with h | h
            · exact absurd h (not_le.mpr h0)
            · exact le_trans h (min_le_left _ _)
          exact le_trans this (hs.1 x' hx'))
      refine ⟨(yp[j1 - 1]'(by omega) + f • (yp[j1]'(by omega) - yp[j1 - 1]'(by omega))) :: ys, ?_, ?_, ?_⟩
      · simp only [interpLoop, e, Option.bind_eq_bind, Option.bind_some, valueAt, Option.pure_def]
        rw [if_neg (by omega), List.getElem?_eq_getElem (by omega), List.getElem?_eq_getElem (by omega)]
        simp only [Option.bind_some, ey]
      · simp [hl]
      · intro i x' y hx' hy'
        cases i with
        | zero =>
          simp only [List.getElem?_cons_zero, Option.some.injEq] at hx' hy'
          rw [← hx', ← hy']
          exact chord_value xp yp hinc hlen j1 f hj hj1 hf0 hf1 x hx
        | succ i =>
          simp only [List.getElem?_cons_succ] at hx' hy'
          exact hi i x' y hx' hy'
  obtain ⟨ys, e, hl, hi⟩ := main xs 1 hxs (by
    left; unfold startIdx; simp only; split <;> split <;> omega)
  refine ⟨ys, ?_, hl, hi⟩
  unfold interpVec
  rw [if_neg (by omega), e]
  simp only [Option.bind_eq_bind, Option.bind_some]
  rw [if_pos (by omega), List.drop_eq_nil_of_le (by omega), List.append_nil]
  rfl

/-- The vector version with one datum leaves all values but the first unchanged, so it is
not the interpolant: false beyond the first point. -/
theorem C21_vector_one_datum_false (a : K) (b : V) (x1 x2 : K) (xs : List K) (u v : V) (w : List V) :
    interpVec [a] [b] (x1 :: x2 :: xs) (u :: v :: w) = some (b :: v :: w) := by
  simp [interpVec]

/-- With decreasing evaluation points the vector version does not interpolate (as its
documentation says): after evaluating at 3, the value at 0 is the one at 2. -/
theorem C21_vector_unsorted_false :
    interpVec (K := ℚ) [0, 1, 2, 3] [(0 : ℚ), 10, 20, 30] [5/2, 0] [0, 0] = some [25, 20] := by
  norm_num [interpVec, interpLoop, interpFactor, factorLoop, valueAt]

/-- With two or more data but a single abscissa the first index is out of range. -/
theorem C21_inconsistent_table (a x : K) (b c : V) (ys : List V) :
    interp [a] (b :: c :: ys) x = none := by
  simp [interp, interpFactor, valueAt]

/-- non-vacuity -/
example : interp (K := ℚ) [0, 1, 3] [(0 : ℚ), 10, 20] 2 = some 15 ∧ interp (K := ℚ) [0, 1, 3] [(0 : ℚ), 10, 20] (-7) = some 0
    ∧ interp (K := ℚ) [0, 1, 3] [(0 : ℚ), 10, 20] 8 = some 20 ∧ ([0, 1, 3] : List ℚ).Pairwise (· < ·) := by
  refine ⟨?_, ?_, ?_, by norm_num⟩ <;> norm_num [interp, interpFactor, factorLoop, valueAt]

end MD.Interp
