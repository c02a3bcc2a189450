import Verif.Model.Seafloor
import Verif.Lemmas.Interp
import Mathlib.Data.Rat.Defs
import Mathlib.Algebra.Order.Ring.Rat
import Mathlib.Algebra.BigOperators.Group.List.Basic
import Mathlib.Tactic.NormNum

/-!
# Property C22: seabed depth
-/

set_option linter.unusedSimpArgs false
set_option linter.unusedSectionVars false

namespace MD.Seafloor

open MD.Interp

variable {K : Type} [Field K] [LinearOrder K] [IsStrictOrderedRing K]

/-! ## Specification -/

/-- The file has one row for each grid point, in any order, with depths `z i j`. -/
def Complete (px py : List K) (z : ℕ → ℕ → K) (rows : List (K × K × K)) : Prop :=
  rows.Perm (px.zipIdx.flatMap fun p => py.zipIdx.map fun q => (p.1, q.1, z p.2 q.2))

/-- `d` is the bilinear interpolation: interpolate along x at each tick of y, and the
results along y. -/
def IsBilinear (px py : List K) (z : ℕ → ℕ → K) (x y d : K) : Prop :=
  ∃ col : List K, col.length = py.length ∧
    (∀ (j : ℕ) (c : K), col[j]? = some c →
      IsInterp px ((List.range px.length).map fun i => z i j) x c) ∧
    IsInterp py col y d

/-! ## Lemmas -/

theorem insertLoop_spec (v : K) (n : ℕ) (l : List K) (i k : ℕ) (hinc : l.Pairwise (· < ·))
    (hk : l[k]? = some v) (hn : n = i + l.length) : insertLoop v n i l = i + k := by
  induction l generalizing i k with
  | nil => simp at hk
  | cons a l ih =>
    rw [List.pairwise_cons] at hinc
    cases k with
    | zero =>
      simp only [List.getElem?_cons_zero, Option.some.injEq] at hk
      subst hk
      unfold insertLoop
      rw [if_neg (lt_irrefl _)]
      cases l with
      | nil => simp [insertLoop, hn]
      | cons b l =>
        have := hinc.1 b (by simp)
        unfold insertLoop
        rw [if_pos this, if_neg (by omega)]; omega
    | succ k =>
      simp only [List.getElem?_cons_succ] at hk
      have hlt := hinc.1 v (List.mem_of_getElem? hk)
      unfold insertLoop
      rw [if_neg (not_lt.mpr (le_of_lt hlt))]
      rw [ih (i + 1) k hinc.2 hk (by simp at hn; omega)]; omega

theorem calcInsertIndex_spec (l : List K) (v : K) (k : ℕ) (hinc : l.Pairwise (· < ·))
    (hk : l[k]? = some v) : calcInsertIndex l v = k := by
  unfold calcInsertIndex
  rw [insertLoop_spec v l.length l 0 k hinc hk (by omega)]; omega

/-- cell `(i, j)` of the grid -/
def cell (s : Floor K) (i j : ℕ) : Option K := (s.grid[i]?).bind (fun r => r[j]?)

theorem cell_addRow (s : Floor K) (row : K × K × K) (i j : ℕ) :
    cell (addRow s row) i j = if calcInsertIndex s.px row.1 = i ∧ calcInsertIndex s.py row.2.1 = j then
      (cell s i j).map (fun _ => row.2.2) else cell s i j := by
  unfold cell addRow
  simp only [List.getElem?_modify]
  by_cases h1 : calcInsertIndex s.px row.1 = i
  · subst h1
    cases hg : s.grid[calcInsertIndex s.px row.1]? with
    | none => simp
    | some r =>
      simp only [if_true, Option.map_some, Option.bind_some, List.getElem?_set, true_and]
      by_cases h2 : calcInsertIndex s.py row.2.1 = j
      · subst h2
        by_cases h3 : calcInsertIndex s.py row.2.1 < r.length
        · simp [h3]
        · simp [h3]
      · simp [h2]
  · simp [h1]

theorem fold_axes (rows : List (K × K × K)) (s : Floor K) :
    (rows.foldl addRow s).px = s.px ∧ (rows.foldl addRow s).py = s.py ∧
    (rows.foldl addRow s).total = s.total + (rows.map fun r => r.2.2).sum := by
  induction rows generalizing s with
  | nil => simp
  | cons r rows ih =>
    obtain ⟨a, b, c⟩ := ih (addRow s r)
    refine ⟨a, b, ?_⟩
    rw [List.foldl_cons, c]
    simp [addRow, add_assoc]

theorem fold_cell (rows : List (K × K × K)) (s : Floor K) (i j : ℕ) (v : K)
    (hin : (cell s i j).isSome)
    (hall : ∀ r ∈ rows, calcInsertIndex s.px r.1 = i → calcInsertIndex s.py r.2.1 = j → r.2.2 = v)
    (hex : cell s i j = some v ∨
      ∃ r ∈ rows, calcInsertIndex s.px r.1 = i ∧ calcInsertIndex s.py r.2.1 = j) :
    cell (rows.foldl addRow s) i j = some v := by
  induction rows generalizing s with
  | nil =>
    rcases hex with h | ⟨r, h, _⟩
    · exact h
    · cases h
  | cons r rows ih =>
    rw [List.foldl_cons]
    have hc := cell_addRow s r i j
    have hin' : (cell (addRow s r) i j).isSome := by
      rw [hc]; split
      · simpa using hin
      · exact hin
    apply ih (addRow s r) hin' (fun r' hr' => hall r' (by simp [hr']))
    by_cases hr : calcInsertIndex s.px r.1 = i ∧ calcInsertIndex s.py r.2.1 = j
    · left
      rw [hc, if_pos hr, hall r (by simp) hr.1 hr.2]
      obtain ⟨w, hw⟩ := Option.isSome_iff_exists.mp hin
      rw [hw]; rfl
    · rw [hc, if_neg hr]
      rcases hex with h | ⟨r', h, h'⟩
      · exact Or.inl h
      · rcases List.mem_cons.mp h with rfl | h
        · exact absurd h' hr
        · exact Or.inr ⟨r', h, h'⟩

theorem fold_shallow (rows : List (K × K × K)) (s : Floor K) (m : K)
    (h : (rows.foldl addRow s).shallow = some m) :
    (s.shallow = some m ∨ ∃ r ∈ rows, r.2.2 = m) ∧ (∀ r ∈ rows, r.2.2 ≤ m) ∧
      (∀ w, s.shallow = some w → w ≤ m) := by
  induction rows generalizing s with
  | nil =>
    simp only [List.foldl_nil] at h
    refine ⟨Or.inl h, by simp, ?_⟩
    intro w hw
    rw [h] at hw
    exact le_of_eq (by simpa using hw.symm)
  | cons r rows ih =>
    obtain ⟨a, b, c⟩ := ih (addRow s r) h
    have hs : (addRow s r).shallow = match s.shallow with
      | none => some r.2.2
      | some m => if m < r.2.2 then some r.2.2 else some m := rfl
    have hr : r.2.2 ≤ m ∧ ∀ w, s.shallow = some w → w ≤ m := by
      cases hsh : s.shallow with
      | none =>
        rw [hsh] at hs
        exact ⟨c _ hs, by simp⟩
      | some w =>
        rw [hsh] at hs
        simp only at hs
        split at hs
        · rename_i hlt
          have := c _ hs
          refine ⟨this, ?_⟩
          intro w' hw'
          simp only [Option.some.injEq] at hw'
          subst hw'
          exact le_trans (le_of_lt hlt) this
        · rename_i hlt
          have := c _ hs
          refine ⟨le_trans (not_lt.mp hlt) this, ?_⟩
          intro w' hw'
          simp only [Option.some.injEq] at hw'
          subst hw'
          exact this
    refine ⟨?_, ?_, hr.2⟩
    · rcases a with a | ⟨r', hr', e⟩
      · rw [hs] at a
        cases hsh : s.shallow with
        | none =>
          rw [hsh] at a
          right; exact ⟨r, by simp, by simpa using a⟩
        | some w =>
          rw [hsh] at a
          simp only at a
          split at a
          · right; exact ⟨r, by simp, by simpa using a⟩
          · left; exact a
      · right; exact ⟨r', by simp [hr'], e⟩
    · intro r' hr'
      rcases List.mem_cons.mp hr' with rfl | hr'
      · exact hr.1
      · exact b r' hr'

theorem mem_complete (px py : List K) (z : ℕ → ℕ → K) (rows : List (K × K × K))
    (hc : Complete px py z rows) (r : K × K × K) :
    r ∈ rows ↔ ∃ i j a b, px[i]? = some a ∧ py[j]? = some b ∧ r = (a, b, z i j) := by
  rw [hc.mem_iff, List.mem_flatMap]
  constructor
  · rintro ⟨⟨a, i⟩, h1, h2⟩
    rw [List.mem_map] at h2
    obtain ⟨⟨b, j⟩, h3, h4⟩ := h2
    rw [List.mem_zipIdx_iff_getElem?] at h1 h3
    exact ⟨i, j, a, b, h1, h3, h4.symm⟩
  · rintro ⟨i, j, a, b, h1, h2, h3⟩
    refine ⟨(a, i), List.mem_zipIdx_iff_getElem?.mpr h1, ?_⟩
    rw [List.mem_map]
    exact ⟨(b, j), List.mem_zipIdx_iff_getElem?.mpr h2, h3.symm⟩

theorem setup_cell (px py : List K) (z : ℕ → ℕ → K) (rows : List (K × K × K))
    (hx : px.Pairwise (· < ·)) (hy : py.Pairwise (· < ·)) (hc : Complete px py z rows) (i j : ℕ)
    (hi : i < px.length) (hj : j < py.length) : cell (setup px py rows) i j = some (z i j) := by
  unfold setup
  apply fold_cell
  · simp [cell, List.getElem?_replicate, hi, hj]
  · intro r hr h1 h2
    obtain ⟨i', j', a, b, e1, e2, rfl⟩ := (mem_complete px py z rows hc r).mp hr
    simp only at h1 h2 ⊢
    rw [calcInsertIndex_spec px a i' hx e1] at h1
    rw [calcInsertIndex_spec py b j' hy e2] at h2
    rw [h1, h2]
  · right
    refine ⟨(px[i], py[j], z i j), (mem_complete px py z rows hc _).mpr
      ⟨i, j, px[i], py[j], List.getElem?_eq_getElem hi, List.getElem?_eq_getElem hj, rfl⟩, ?_, ?_⟩
    · exact calcInsertIndex_spec px _ i hx (List.getElem?_eq_getElem hi)
    · exact calcInsertIndex_spec py _ j hy (List.getElem?_eq_getElem hj)

theorem interp2_cell (s : Floor K) (i j : ℕ) (fx fy c00 c01 c10 c11 : K)
    (h00 : cell s (low i) (low j) = some c00) (h01 : cell s (low i) j = some c01)
    (h10 : cell s i (low j) = some c10) (h11 : cell s i j = some c11) :
    interp2 s.grid i j fx fy =
      some ((c00 * (1 - fx) + c10 * fx) * (1 - fy) + (c01 * (1 - fx) + c11 * fx) * fy) := by
  unfold cell at h00 h01 h10 h11
  rw [Option.bind_eq_some_iff] at h00 h01 h10 h11
  obtain ⟨r0, a0, b0⟩ := h00
  obtain ⟨r0', a0', b0'⟩ := h01
  obtain ⟨r1, a1, b1⟩ := h10
  obtain ⟨r1', a1', b1'⟩ := h11
  rw [a0] at a0'; cases a0'
  rw [a1] at a1'; cases a1'
  simp [interp2, a0, a1, b0, b0', b1, b1']

/-! ## C22 -/

/-- C22: with a complete file (rows in any order) over increasing ticks, at every point the
depth is defined and is the bilinear interpolation of the file; beyond the edges it is
the depth at the closest point of the edge. -/
theorem C22_depth_partial (px py : List K) (z : ℕ → ℕ → K) (rows : List (K × K × K))
    (hx : px.Pairwise (· < ·)) (hy : py.Pairwise (· < ·)) (hnx : 0 < px.length)
    (hny : 0 < py.length) (hc : Complete px py z rows) (x y : K) :
    ∃ d, (setup px py rows).depthAt x y = some d ∧ IsBilinear px py z x y d ∧
      (setup px py rows).depthAt (clamp px[0] (px[px.length - 1]'(by omega)) x)
        (clamp py[0] (py[py.length - 1]'(by omega)) y) = some d := by
  have hax : (setup px py rows).px = px ∧ (setup px py rows).py = py := by
    obtain ⟨a, b, -⟩ := fold_axes rows
      ({ px := px, py := py, grid := List.replicate px.length (List.replicate py.length 0),
         total := 0, shallow := none } : Floor K)
    exact ⟨a, b⟩
  obtain ⟨i, fx, e1, hi, hli, f0, f1, e1c, intx⟩ := interpFactor_any (V := K) px hx hnx x
  obtain ⟨j, fy, e2, hj, hlj, g0, g1, e2c, inty⟩ := interpFactor_any (V := K) py hy hny y
  have v := interp2_cell (setup px py rows) i j fx fy _ _ _ _
    (setup_cell px py z rows hx hy hc (low i) (low j) hli hlj)
    (setup_cell px py z rows hx hy hc (low i) j hli hj)
    (setup_cell px py z rows hx hy hc i (low j) hi hlj)
    (setup_cell px py z rows hx hy hc i j hi hj)
  refine ⟨lerp (lerp (z (low i) (low j)) (z i (low j)) fx) (lerp (z (low i) j) (z i j) fx) fy,
    ?_, ?_, ?_⟩
  rotate_left
  · refine ⟨(List.range py.length).map fun k => lerp (z (low i) k) (z i k) fx, by simp, ?_, ?_⟩
    · intro k c hk
      rw [List.getElem?_map, Option.map_eq_some_iff] at hk
      obtain ⟨k', hk', rfl⟩ := hk
      obtain ⟨hkl, hkk⟩ := List.getElem?_eq_some_iff.mp hk'
      simp only [List.getElem_range] at hkk
      subst hkk
      apply intx _ _ _ (by simp)
      · rw [List.getElem?_map, List.getElem?_range hli]; rfl
      · rw [List.getElem?_map, List.getElem?_range hi]; rfl
    · refine inty _ (lerp (z (low i) (low j)) (z i (low j)) fx) (lerp (z (low i) j) (z i j) fx)
        (by simp) ?_ ?_
      · rw [List.getElem?_map, List.getElem?_range hlj]; rfl
      · rw [List.getElem?_map, List.getElem?_range hj]; rfl
  · unfold Floor.depthAt
    rw [hax.1, hax.2, e1c, e2c]
    simp only [Option.bind_eq_bind, Option.bind_some]
    rw [v]
    congr 1
    simp only [lerp, smul_eq_mul]; ring
  · unfold Floor.depthAt
    rw [hax.1, hax.2, e1, e2]
    simp only [Option.bind_eq_bind, Option.bind_some]
    rw [v]
    congr 1
    simp only [lerp, smul_eq_mul]; ring

theorem isInterp_bounds (xp yp : List K) (hinc : xp.Pairwise (· < ·)) (hn : 0 < xp.length)
    (hl : yp.length = xp.length) (x y lo hi : K) (h : IsInterp xp yp x y)
    (hb : ∀ v ∈ yp, lo ≤ v ∧ v ≤ hi) : lo ≤ y ∧ y ≤ hi := by
  obtain ⟨j, f, -, hj, hlj, f0, f1, -, hint⟩ := interpFactor_any (V := K) xp hinc hn x
  have := hint yp (yp[low j]'(by omega)) (yp[j]'(by omega)) hl
    (List.getElem?_eq_getElem (by omega)) (List.getElem?_eq_getElem (by omega))
  rw [h.unique xp yp hinc hn hl x y _ this]
  have c1 := hb (yp[low j]'(by omega)) (List.getElem_mem _)
  have c2 := hb (yp[j]'(by omega)) (List.getElem_mem _)
  simp only [lerp, smul_eq_mul]
  constructor
  · nlinarith [mul_le_mul_of_nonneg_left c1.1 (show 0 ≤ 1 - f by linarith),
      mul_le_mul_of_nonneg_left c2.1 f0]
  · nlinarith [mul_le_mul_of_nonneg_left c1.2 (show 0 ≤ 1 - f by linarith),
      mul_le_mul_of_nonneg_left c2.2 f0]

/-- C22: the depth lies within any bounds of the depths in the file. -/
theorem C22_bounds_partial (px py : List K) (z : ℕ → ℕ → K) (rows : List (K × K × K))
    (hx : px.Pairwise (· < ·)) (hy : py.Pairwise (· < ·)) (hnx : 0 < px.length)
    (hny : 0 < py.length) (hc : Complete px py z rows) (x y d lo hi : K)
    (hd : (setup px py rows).depthAt x y = some d) (hb : ∀ r ∈ rows, lo ≤ r.2.2 ∧ r.2.2 ≤ hi) :
    lo ≤ d ∧ d ≤ hi := by
  obtain ⟨d', e, ⟨col, hl, hcol, hrow⟩, -⟩ := C22_depth_partial px py z rows hx hy hnx hny hc x y
  rw [e] at hd
  cases hd
  apply isInterp_bounds py col hy hny hl y d lo hi hrow
  intro v hv
  obtain ⟨j, hj⟩ := List.mem_iff_getElem?.mp hv
  have hjl : j < py.length := by
    rw [← hl]; exact (List.getElem?_eq_some_iff.mp hj).1
  apply isInterp_bounds px _ hx hnx (by simp) x v lo hi (hcol j v hj)
  intro w hw
  rw [List.mem_map] at hw
  obtain ⟨i, hi', rfl⟩ := hw
  rw [List.mem_range] at hi'
  exact hb (px[i], py[j], z i j) ((mem_complete px py z rows hc _).mpr
      ⟨i, j, _, _, List.getElem?_eq_getElem hi', List.getElem?_eq_getElem hjl, rfl⟩)

theorem isInterp_at (xp yp : List K) (hinc : xp.Pairwise (· < ·)) (hl : yp.length = xp.length)
    (i : ℕ) (a b : K) (ha : xp[i]? = some a) (hb : yp[i]? = some b) : IsInterp xp yp a b := by
  obtain ⟨hi, ea⟩ := List.getElem?_eq_some_iff.mp ha
  obtain ⟨hi', eb⟩ := List.getElem?_eq_some_iff.mp hb
  refine ⟨?_, ?_, ?_⟩
  · intro c d hc hd hle
    rw [List.head?_eq_getElem?, List.getElem?_eq_getElem (by omega)] at hc hd
    simp only [Option.some.injEq] at hc hd
    have : i = 0 := by
      by_contra hne
      have := Inc.lt hinc (show 0 < i by omega) hi
      rw [hc, ea] at this; exact absurd hle (not_le.mpr this)
    subst this
    rw [← eb, hd]
  · intro c d hc hd hle
    rw [List.getLast?_eq_getElem?, List.getElem?_eq_getElem (by omega)] at hc hd
    simp only [Option.some.injEq] at hc hd
    have : i = xp.length - 1 := by
      by_contra hne
      have := Inc.lt hinc (show i < xp.length - 1 by omega) (by omega)
      rw [hc, ea] at this; exact absurd hle (not_le.mpr this)
    subst this
    rw [← eb, ← hd]; congr 1; omega
  · intro k a' b' c d h1 h2 h3 h4 h5 h6
    obtain ⟨k1, e1⟩ := List.getElem?_eq_some_iff.mp h1
    obtain ⟨k2, e2⟩ := List.getElem?_eq_some_iff.mp h2
    have hik : i = k ∨ i = k + 1 := by
      by_contra hne
      rcases Nat.lt_or_ge i k with h | h
      · have := Inc.lt hinc h k1
        rw [ea, e1] at this; exact absurd h5 (not_le.mpr this)
      · have := Inc.lt hinc (show k + 1 < i by omega) hi
        rw [ea, e2] at this; exact absurd h6 (not_le.mpr this)
    rcases hik with rfl | rfl
    · rw [ha] at h1; rw [hb] at h3
      cases h1; cases h3
      simp
    · rw [ha] at h2; rw [hb] at h4
      cases h2; cases h4
      simp

/-- C22: at the grid points the depth is that of the file. -/
theorem C22_grid_points_partial (px py : List K) (z : ℕ → ℕ → K) (rows : List (K × K × K))
    (hx : px.Pairwise (· < ·)) (hy : py.Pairwise (· < ·)) (hc : Complete px py z rows)
    (r : K × K × K) (hr : r ∈ rows) : (setup px py rows).depthAt r.1 r.2.1 = some r.2.2 := by
  obtain ⟨i, j, a, b, ha, hb, rfl⟩ := (mem_complete px py z rows hc r).mp hr
  obtain ⟨hi, -⟩ := List.getElem?_eq_some_iff.mp ha
  obtain ⟨hj, -⟩ := List.getElem?_eq_some_iff.mp hb
  obtain ⟨d, e, ⟨col, hl, hcol, hrow⟩, -⟩ :=
    C22_depth_partial px py z rows hx hy (by omega) (by omega) hc a b
  rw [e]
  congr 1
  have hcj : col[j]? = some (col[j]'(by omega)) := List.getElem?_eq_getElem (by omega)
  have h1 := hrow.unique py col hy (by omega) hl b d _
    (isInterp_at py col hy hl j b (col[j]'(by omega)) hb hcj)
  have h2 := (hcol j _ hcj).unique px _ hx (by omega) (by simp) a _ (z i j)
    (isInterp_at px _ hx (by simp) i a _ ha (by rw [List.getElem?_map, List.getElem?_range hi]; rfl))
  rw [h1, h2]

/-- C22: average and minimum depth (the largest, i.e. least negative, value) are those of
the file. -/
theorem C22_statistics_partial (px py : List K) (z : ℕ → ℕ → K) (rows : List (K × K × K))
    (hnx : 0 < px.length) (hny : 0 < py.length) (hc : Complete px py z rows) :
    (setup px py rows).average * rows.length = (rows.map fun r => r.2.2).sum ∧
    ∃ m, (setup px py rows).shallow = some m ∧ (∃ r ∈ rows, r.2.2 = m) ∧ ∀ r ∈ rows, r.2.2 ≤ m := by
  obtain ⟨a, b, c⟩ := fold_axes rows
      ({ px := px, py := py, grid := List.replicate px.length (List.replicate py.length 0),
         total := 0, shallow := none } : Floor K)
  have hlen : rows.length = px.length * py.length := by
    rw [hc.length_eq, List.length_flatMap]
    simp
  constructor
  · unfold Floor.average
    rw [hlen]
    show (rows.foldl addRow _).total / (((rows.foldl addRow _).px.length *
      (rows.foldl addRow _).py.length : ℕ) : K) * _ = _
    rw [a, b, c, zero_add]
    have : ((px.length * py.length : ℕ) : K) ≠ 0 := by
      have : 0 < px.length * py.length := Nat.mul_pos hnx hny
      exact_mod_cast this.ne'
    rw [div_mul_cancel₀ _ this]
  · have hpos : 0 < rows.length := by rw [hlen]; exact Nat.mul_pos hnx hny
    have hsome : ∀ (rows : List (K × K × K)) (s : Floor K), (rows ≠ [] ∨ s.shallow.isSome) →
        ∃ m, (rows.foldl addRow s).shallow = some m := by
      intro rows
      induction rows with
      | nil =>
        intro s h
        rcases h with h | h
        · exact absurd rfl h
        · exact Option.isSome_iff_exists.mp h
      | cons r rows ih =>
        intro s _
        apply ih
        right
        show (match s.shallow with
          | none => some r.2.2
          | some m => if m < r.2.2 then some r.2.2 else some m).isSome = true
        split
        · rfl
        · split <;> rfl
    obtain ⟨m, hm⟩ := hsome rows
      ({ px := px, py := py, grid := List.replicate px.length (List.replicate py.length 0),
         total := 0, shallow := none } : Floor K) (Or.inl (List.length_pos_iff.mp hpos))
    obtain ⟨h1, h2, -⟩ := fold_shallow rows _ m hm
    refine ⟨m, hm, ?_, h2⟩
    rcases h1 with h1 | h1
    · cases h1
    · exact h1

/-- C22 is false for incomplete files, which are accepted: a missing grid point has depth
0, the seabed is at the surface, above the reported minimum depth, and the average
counts it as 0. -/
theorem C22_incomplete_false :
    let s := setup (K := ℚ) [0, 1] [0] [(0, 0, -10)]
    s.depthAt 0 0 = some (-10) ∧ s.depthAt 1 0 = some 0 ∧ s.shallow = some (-10) ∧ s.average = -5 := by
  refine ⟨?_, ?_, ?_, ?_⟩ <;>
  norm_num [setup, addRow, Floor.depthAt, Floor.average, calcInsertIndex, insertLoop, interpFactor,
    factorLoop, interp2, low]

/-- C22 is false for repeated rows: the average counts both. -/
theorem C22_repeated_false :
    let s := setup (K := ℚ) [0] [0] [(0, 0, -10), (0, 0, -30)]
    s.depthAt 0 0 = some (-30) ∧ s.shallow = some (-10) ∧ s.average = -40 := by
  refine ⟨?_, ?_, ?_⟩ <;>
  norm_num [setup, addRow, Floor.depthAt, Floor.average, calcInsertIndex, insertLoop, interpFactor,
    factorLoop, interp2, low]

/-- non-vacuity: a complete file, rows not in grid order -/
example : Complete (K := ℚ) [0, 1] [5] (fun i _ => -10 - i) [(1, 5, -11), (0, 5, -10)] := by
  unfold Complete
  norm_num [List.zipIdx]
  exact List.Perm.swap _ _ _

end MD.Seafloor
