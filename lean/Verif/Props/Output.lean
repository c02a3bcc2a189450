import Mathlib.Algebra.Order.Archimedean.Basic
import Mathlib.Algebra.Order.Floor.Semiring
import Mathlib.Tactic.Linarith
import Mathlib.Tactic.FieldSimp
import Mathlib.Tactic.Ring
import Mathlib.Tactic.FinCases
import Mathlib.Tactic.IntervalCases
import Mathlib.Data.Fintype.Basic
import Mathlib.Algebra.Order.BigOperators.Group.List
import Mathlib.Data.List.Nodup
import Verif.Model.Output

/-!
# Output files (C46, C47)
-/

set_option linter.unusedSimpArgs false
set_option linter.unusedVariables false
set_option linter.unusedSectionVars false

namespace MD.Output

/-! ## C46: the output rate -/

section Rate

variable {K : Type} [Field K] [LinearOrder K] [IsStrictOrderedRing K] [FloorRing K]

/-- With a positive output interval a row is written if and only if the step contains a
multiple of the interval: after its beginning, and up to its end. -/
theorem C46_row_iff (dtOut t dt : K) (h : 0 < dtOut) :
    writes dtOut t dt = true ↔ ∃ k : ℤ, t - dt < k * dtOut ∧ k * dtOut ≤ t := by
  unfold writes
  rw [if_pos h]
  split_ifs with ht
  · simp only [Bool.false_eq_true, false_iff, not_exists, not_and, not_le]
    intro k hk
    have h1 : ⌊(t - dt) / dtOut⌋ < k := by
      rw [Int.floor_lt, div_lt_iff₀ h]; exact hk
    have h2 : (⌊(t - dt) / dtOut⌋ : K) + 1 ≤ k := by exact_mod_cast h1
    exact lt_of_lt_of_le ht (mul_le_mul_of_nonneg_right h2 h.le)
  · simp only [true_iff]
    refine ⟨⌊(t - dt) / dtOut⌋ + 1, ?_, by push_cast; exact not_lt.1 ht⟩
    have := Int.lt_floor_add_one ((t - dt) / dtOut)
    rw [div_lt_iff₀ h] at this
    push_cast
    exact this

/-- Without a positive output interval every step is written. -/
theorem C46_every_step (dtOut t dt : K) (h : dtOut ≤ 0) : writes dtOut t dt = true := by
  unfold writes
  rw [if_neg (not_lt.2 h)]

/-- The row of a step in terms of the number of multiples reached. -/
theorem writes_floor (dtOut t dt : K) (h : 0 < dtOut) :
    writes dtOut t dt = true ↔ ⌊(t - dt) / dtOut⌋ < ⌊t / dtOut⌋ := by
  unfold writes
  rw [if_pos h]
  have : (t < ((⌊(t - dt) / dtOut⌋ : K) + 1) * dtOut) ↔ ⌊t / dtOut⌋ < ⌊(t - dt) / dtOut⌋ + 1 := by
    rw [Int.floor_lt, div_lt_iff₀ h]
    push_cast
    rfl
  by_cases h1 : t < ((⌊(t - dt) / dtOut⌋ : K) + 1) * dtOut
  · rw [if_pos h1]
    have := this.1 h1
    simp; omega
  · rw [if_neg h1]
    have := mt this.2 h1
    simp; omega

/-- The end of a sequence of steps (those with no length do nothing). -/
def endTime (t : K) (ds : List K) : K := t + (ds.filter (0 < ·)).sum

theorem endTime_cons (t d : K) (ds : List K) :
    endTime t (d :: ds) = if d ≤ 0 then endTime t ds else endTime (t + d) ds := by
  unfold endTime
  split_ifs with h
  · rw [List.filter_cons_of_neg (by simpa using h)]
  · rw [List.filter_cons_of_pos (by simpa using h), List.sum_cons]; ring

theorem endTime_ge (t : K) (ds : List K) : t ≤ endTime t ds := by
  unfold endTime
  have : 0 ≤ (ds.filter (0 < ·)).sum := List.sum_nonneg fun x hx => by
    have := (List.mem_filter.1 hx).2
    simp at this
    exact this.le
  linarith

/-- For steps no longer than the output interval, the number of rows written between two
times is the number of multiples of the interval passed. -/
theorem C46_count (dtOut : K) (h : 0 < dtOut) (t : K) (ds : List K)
    (hd : ∀ d ∈ ds, d ≤ dtOut) :
    ((rows dtOut t ds).length : ℤ) = ⌊endTime t ds / dtOut⌋ - ⌊t / dtOut⌋ := by
  induction ds generalizing t with
  | nil => simp [rows, endTime]
  | cons d ds ih =>
    have hd' : ∀ d ∈ ds, d ≤ dtOut := fun x hx => hd x (by simp [hx])
    rw [endTime_cons]
    unfold rows
    split_ifs with h0 h1
    · exact ih t hd'
    · have := (writes_floor dtOut (t + d) d h).1 h1
      rw [add_sub_cancel_right] at this
      have hle : ⌊(t + d) / dtOut⌋ ≤ ⌊t / dtOut⌋ + 1 := by
        rw [← Int.floor_add_one]
        apply Int.floor_le_floor
        rw [add_div]
        have : d / dtOut ≤ 1 := by rw [div_le_one h]; exact hd d (by simp)
        linarith
      rw [List.length_cons, Nat.cast_add, Nat.cast_one, ih (t + d) hd']
      omega
    · have hn : ¬ ⌊t / dtOut⌋ < ⌊(t + d) / dtOut⌋ := by
        intro hlt
        apply h1
        rw [writes_floor dtOut (t + d) d h, add_sub_cancel_right]
        exact hlt
      have hge : ⌊t / dtOut⌋ ≤ ⌊(t + d) / dtOut⌋ := by
        apply Int.floor_le_floor
        have : t ≤ t + d := by push Not at h0; linarith
        exact div_le_div_of_nonneg_right this h.le
      rw [ih (t + d) hd']
      omega

/-- In general, never more rows than multiples passed. -/
theorem C46_at_most (dtOut : K) (h : 0 < dtOut) (t : K) (ds : List K) :
    ((rows dtOut t ds).length : ℤ) ≤ ⌊endTime t ds / dtOut⌋ - ⌊t / dtOut⌋ := by
  induction ds generalizing t with
  | nil => simp [rows, endTime]
  | cons d ds ih =>
    rw [endTime_cons]
    unfold rows
    split_ifs with h0 h1
    · exact ih t
    · have := (writes_floor dtOut (t + d) d h).1 h1
      rw [add_sub_cancel_right] at this
      have := ih (t + d)
      rw [List.length_cons, Nat.cast_add, Nat.cast_one]
      omega
    · have hge : ⌊t / dtOut⌋ ≤ ⌊(t + d) / dtOut⌋ := by
        apply Int.floor_le_floor
        have : t ≤ t + d := by push Not at h0; linarith
        exact div_le_div_of_nonneg_right this h.le
      have := ih (t + d)
      omega

/-- The rows are in increasing order of time, after the beginning, and up to the end. -/
theorem C46_ordered (dtOut t : K) (ds : List K) :
    (rows dtOut t ds).Pairwise (· < ·) ∧ ∀ x ∈ rows dtOut t ds, t < x ∧ x ≤ endTime t ds := by
  induction ds generalizing t with
  | nil => simp [rows]
  | cons d ds ih =>
    rw [endTime_cons]
    unfold rows
    split_ifs with h0 h1
    · exact ih t
    · obtain ⟨a, b⟩ := ih (t + d)
      refine ⟨List.pairwise_cons.2 ⟨fun x hx => (b x hx).1, a⟩, ?_⟩
      intro x hx
      push Not at h0
      rcases List.mem_cons.1 hx with rfl | hx
      · exact ⟨by linarith, endTime_ge _ _⟩
      · exact ⟨by linarith [(b x hx).1], (b x hx).2⟩
    · obtain ⟨a, b⟩ := ih (t + d)
      push Not at h0
      exact ⟨a, fun x hx => ⟨by linarith [(b x hx).1], (b x hx).2⟩⟩

/-- With no output interval all the steps are written. -/
theorem C46_every_row (dtOut : K) (h : dtOut ≤ 0) (t : K) (ds : List K) :
    (rows dtOut t ds).length = (ds.filter (0 < ·)).length ∧ initRows dtOut = [0] := by
  constructor
  · induction ds generalizing t with
    | nil => rfl
    | cons d ds ih =>
      unfold rows
      split_ifs with h0 h1
      · rw [List.filter_cons_of_neg (by simpa using h0)]; exact ih t
      · rw [List.filter_cons_of_pos (by simpa using h0), List.length_cons, List.length_cons,
          ih (t + d)]
      · exact absurd (C46_every_step dtOut _ _ h) h1
  · simp [initRows, C46_every_step dtOut _ _ h]

/-- The row for the initial time, a multiple of every output interval, is never written
when there is an output interval. -/
theorem C46_start_false (dtOut : K) (h : 0 < dtOut) : initRows dtOut = [] := by
  have : writes dtOut (0 : K) 0 = false := by
    unfold writes
    rw [if_pos h, if_pos]
    simp [h]
  simp [initRows, this]

/-- C46: the documentation has a null interval stand for the internal time step `dtM` (docs/inputs.rst:591-592).  It does not: a call over two or more
internal steps writes one row only. -/
theorem C46_null_interval_false (dtM t d : K) (h : 0 < dtM) (hd : 2 * dtM ≤ d) :
    (rows 0 t [d]).length = 1 ∧ 1 < ⌊endTime t [d] / dtM⌋ - ⌊t / dtM⌋ := by
  have h0 : 0 < d := by linarith
  refine ⟨?_, ?_⟩
  · rw [(C46_every_row (0 : K) le_rfl t [d]).1]
    simp [h0]
  · have h1 : ⌊t / dtM⌋ + 2 ≤ ⌊endTime t [d] / dtM⌋ := by
      rw [Int.le_floor, endTime_cons]
      have h2 : (2 : K) ≤ d / dtM := by rwa [le_div_iff₀ h]
      have h3 := Int.floor_le (t / dtM)
      have h4 : endTime (t + d) ([] : List K) = t + d := by simp [endTime]
      rw [h4, if_neg (not_le.2 h0), add_div]
      push_cast
      linarith
    omega

/-- A call over a second with internal steps of a tenth. -/
example : (rows (0 : ℚ) 0 [1]).length = 1 ∧ ⌊endTime (0 : ℚ) [1] / (1 / 10)⌋ - ⌊(0 : ℚ) / (1 / 10)⌋ = 10 := by
  refine ⟨(C46_null_interval_false (1 / 10 : ℚ) 0 1 (by norm_num) (by norm_num)).1, ?_⟩
  have : endTime (0 : ℚ) [1] / (1 / 10) = ((10 : ℤ) : ℚ) := by norm_num [endTime]
  rw [this, Int.floor_intCast]
  simp

end Rate

example : rows (1 : ℚ) 0 [3/10, 3/10, 3/10, 3/10, 9/10, 9/10] = [6/5, 21/10, 3] := by
  decide +kernel

/-! ## C47: columns -/

/-- The quantities of the file of a line: vectors and numbers. -/
inductive VQ | p | v | U | D | c | b
deriving DecidableEq, Repr
inductive SQ | K | t | s | d
deriving DecidableEq, Repr

/-- Specification: what a column holds: the time, a component of a vector at a node or
segment, or a number at one of them (nodes and segments counted from zero). -/
inductive Cell
  | time
  | vec (q : VQ) (i : ℕ) (j : Fin 3)
  | scal (q : SQ) (i : ℕ)
deriving DecidableEq, Repr

def VQ.flag : VQ → Char | .p => 'p' | .v => 'v' | .U => 'U' | .D => 'D' | .c => 'c' | .b => 'b'
def SQ.flag : SQ → Char | .K => 'K' | .t => 't' | .s => 's' | .d => 'd'

/-- How many nodes or segments a quantity has. -/
def VQ.count (N : ℕ) : VQ → ℕ | .c => N | _ => N + 1
def SQ.count (N : ℕ) : SQ → ℕ | .K => N + 1 | _ => N

/-- The columns asked for by some flags. -/
def Cell.Wanted (flags : List Char) (N : ℕ) : Cell → Prop
  | .time => True
  | .vec q i _ => q.flag ∈ flags ∧ i < q.count N
  | .scal q i => q.flag ∈ flags ∧ i < q.count N

def axis (j : Fin 3) : String := ["x", "y", "z"].get j

/-- The title of a column: segments are counted from one. -/
def Cell.title : Cell → String
  | .time => "Time"
  | .vec .p i j => "Node" ++ toString i ++ "p" ++ axis j
  | .vec .v i j => "Node" ++ toString i ++ "v" ++ axis j
  | .vec .U i j => "Node" ++ toString i ++ "U" ++ axis j
  | .vec .D i j => "Node" ++ toString i ++ "D" ++ axis j
  | .vec .c i j => "Seg" ++ toString (i + 1) ++ "c" ++ axis j
  | .vec .b i j => "Node" ++ toString i ++ "b" ++ axis j
  | .scal .K i => "Node" ++ toString i ++ "Ku"
  | .scal .t i => "Seg" ++ toString (i + 1) ++ "Te"
  | .scal .s i => "Seg" ++ toString (i + 1) ++ "St"
  | .scal .d i => "Seg" ++ toString (i + 1) ++ "dSt"

def Cell.unit : Cell → String
  | .time => "(s)"
  | .vec .p _ _ => "(m)"
  | .vec .v _ _ => "(m/s)"
  | .vec .U _ _ => "(m/s)"
  | .vec _ _ _ => "(N)"
  | .scal .K _ => "(1/m)"
  | .scal .t _ => "(N)"
  | .scal .s _ => "(-)"
  | .scal .d _ => "(-/s)"

def Cell.value {K : Type} (l : LineData K) : Cell → K
  | .time => l.time
  | .vec .p i j => l.r i j
  | .vec .v i j => l.rd i j
  | .vec .U i j => l.U i j
  | .vec .D i j => l.D i j
  | .vec .c i j => l.Td i j
  | .vec .b i j => l.B i j
  | .scal .K i => l.Kurv i
  | .scal .t i => l.T i
  | .scal .s i => l.strain i
  | .scal .d i => l.rate i

/-- The cells of a vector quantity, in order. -/
def vecCells (N : ℕ) (q : VQ) : List Cell :=
  (List.range (q.count N)).flatMap fun i => [.vec q i 0, .vec q i 1, .vec q i 2]
def scalCells (N : ℕ) (q : SQ) : List Cell := (List.range (q.count N)).map fun i => .scal q i

/-- The cells of a file, in order. -/
def cells (flags : List Char) (N : ℕ) : List Cell :=
  [.time] ++ flagged flags 'p' (vecCells N .p) ++ flagged flags 'K' (scalCells N .K) ++
  flagged flags 'v' (vecCells N .v) ++ flagged flags 'U' (vecCells N .U) ++
  flagged flags 'D' (vecCells N .D) ++ flagged flags 't' (scalCells N .t) ++
  flagged flags 'c' (vecCells N .c) ++ flagged flags 's' (scalCells N .s) ++
  flagged flags 'd' (scalCells N .d) ++ flagged flags 'b' (vecCells N .b)

theorem map_flagged {α β : Type} (f : α → β) (flags : List Char) (c : Char) (l : List α) :
    (flagged flags c l).map f = flagged flags c (l.map f) := by
  unfold flagged; split_ifs <;> simp

theorem vecCells_titles (N : ℕ) (q : VQ) (what qs : String) (off : ℕ)
    (h : ∀ i j, Cell.title (.vec q i j) = what ++ toString (i + off) ++ qs ++ axis j) :
    (vecCells N q).map Cell.title =
      (List.range' off (q.count N)).flatMap fun i => title3 what i qs := by
  rw [List.range'_eq_map_range, List.flatMap_map]
  simp only [vecCells, List.map_flatMap, List.map_cons, List.map_nil, h, title3, axis,
    Nat.add_comm off]
  rfl

theorem scalCells_titles (N : ℕ) (q : SQ) (what qs : String) (off : ℕ)
    (h : ∀ i, Cell.title (.scal q i) = what ++ toString (i + off) ++ qs) :
    (scalCells N q).map Cell.title =
      (List.range' off (q.count N)).map fun i => what ++ toString i ++ qs := by
  rw [List.range'_eq_map_range, List.map_map]
  simp only [scalCells, List.map_map, Function.comp_def, h, Nat.add_comm off]

theorem flatMap3_replicate (n : ℕ) (q : VQ) (u : String)
    (h : ∀ i j, Cell.unit (.vec q i j) = u) :
    ((List.range n).flatMap fun i => [Cell.vec q i 0, .vec q i 1, .vec q i 2]).map Cell.unit =
      List.replicate (3 * n) u := by
  rw [List.eq_replicate_iff]
  constructor
  · simp only [List.length_map, List.length_flatMap, List.length_cons, List.length_nil]
    simp [Nat.mul_comm]
  · intro b hb
    simp only [List.mem_map, List.mem_flatMap, List.mem_cons, List.not_mem_nil, or_false] at hb
    obtain ⟨a, ⟨i, _, rfl | rfl | rfl⟩, rfl⟩ := hb <;> exact h _ _

theorem vecCells_units (N : ℕ) (q : VQ) (u : String)
    (h : ∀ i j, Cell.unit (.vec q i j) = u) :
    (vecCells N q).map Cell.unit = List.replicate (3 * q.count N) u :=
  flatMap3_replicate _ _ _ h

theorem scalCells_units (N : ℕ) (q : SQ) (u : String) (h : ∀ i, Cell.unit (.scal q i) = u) :
    (scalCells N q).map Cell.unit = List.replicate (q.count N) u := by
  rw [List.eq_replicate_iff]
  constructor
  · simp [scalCells]
  · intro b hb
    simp only [scalCells, List.mem_map] at hb
    obtain ⟨_, ⟨i, _, rfl⟩, rfl⟩ := hb
    exact h i

theorem lineHeader_eq (flags : List Char) (N : ℕ) :
    lineHeader flags N = (cells flags N).map Cell.title := by
  have r0 : ∀ n, List.range n = List.range' 0 n := fun n => List.range_eq_range' 
  have hp := vecCells_titles N .p "Node" "p" 0 (fun _ _ => rfl)
  have hv := vecCells_titles N .v "Node" "v" 0 (fun _ _ => rfl)
  have hU := vecCells_titles N .U "Node" "U" 0 (fun _ _ => rfl)
  have hD := vecCells_titles N .D "Node" "D" 0 (fun _ _ => rfl)
  have hb := vecCells_titles N .b "Node" "b" 0 (fun _ _ => rfl)
  have hc := vecCells_titles N .c "Seg" "c" 1 (fun _ _ => rfl)
  have hK := scalCells_titles N .K "Node" "Ku" 0 (fun _ => rfl)
  have ht := scalCells_titles N .t "Seg" "Te" 1 (fun _ => rfl)
  have hs := scalCells_titles N .s "Seg" "St" 1 (fun _ => rfl)
  have hd := scalCells_titles N .d "Seg" "dSt" 1 (fun _ => rfl)
  simp only [cells, List.map_append, map_flagged, hp, hv, hU, hD, hb, hc, hK, ht, hs, hd]
  simp only [lineHeader, nodeTitles3, nodeTitles, segTitles3, segTitles, r0, VQ.count, SQ.count]
  rfl

theorem lineUnits_eq (flags : List Char) (N : ℕ) :
    lineUnits flags N = (cells flags N).map Cell.unit := by
  have hp := vecCells_units N .p "(m)" (fun _ _ => rfl)
  have hv := vecCells_units N .v "(m/s)" (fun _ _ => rfl)
  have hU := vecCells_units N .U "(m/s)" (fun _ _ => rfl)
  have hD := vecCells_units N .D "(N)" (fun _ _ => rfl)
  have hb := vecCells_units N .b "(N)" (fun _ _ => rfl)
  have hc := vecCells_units N .c "(N)" (fun _ _ => rfl)
  have hK := scalCells_units N .K "(1/m)" (fun _ => rfl)
  have ht := scalCells_units N .t "(N)" (fun _ => rfl)
  have hs := scalCells_units N .s "(-)" (fun _ => rfl)
  have hd := scalCells_units N .d "(-/s)" (fun _ => rfl)
  simp only [cells, List.map_append, map_flagged, hp, hv, hU, hD, hb, hc, hK, ht, hs, hd]
  simp only [lineUnits, VQ.count, SQ.count, Nat.mul_add, Nat.mul_one]
  rfl

theorem lineRow_eq {K : Type} (flags : List Char) (l : LineData K) :
    lineRow flags l = (cells flags l.N).map (Cell.value l) := by
  simp only [cells, List.map_append, map_flagged, vecCells, scalCells, List.map_flatMap,
    List.map_map, List.map_cons, List.map_nil, Function.comp_def, Cell.value, VQ.count,
    SQ.count]
  rfl

theorem mem_vecCells (N : ℕ) (q : VQ) (x : Cell) :
    x ∈ vecCells N q ↔ ∃ i j, x = .vec q i j ∧ i < q.count N := by
  simp only [vecCells, List.mem_flatMap, List.mem_range, List.mem_cons, List.not_mem_nil,
    or_false]
  constructor
  · rintro ⟨i, hi, rfl | rfl | rfl⟩ <;> exact ⟨i, _, rfl, hi⟩
  · rintro ⟨i, j, rfl, hi⟩
    refine ⟨i, hi, ?_⟩
    fin_cases j <;> simp

theorem mem_scalCells (N : ℕ) (q : SQ) (x : Cell) :
    x ∈ scalCells N q ↔ ∃ i, x = .scal q i ∧ i < q.count N := by
  simp only [scalCells, List.mem_map, List.mem_range]
  constructor
  · rintro ⟨i, hi, rfl⟩; exact ⟨i, rfl, hi⟩
  · rintro ⟨i, rfl, hi⟩; exact ⟨i, hi, rfl⟩

theorem mem_flagged {α : Type} (flags : List Char) (c : Char) (l : List α) (x : α) :
    x ∈ flagged flags c l ↔ c ∈ flags ∧ x ∈ l := by
  unfold flagged; split_ifs with h <;> simp [h]

theorem nodup_flagged {α : Type} (flags : List Char) (c : Char) {l : List α} (h : l.Nodup) :
    (flagged flags c l).Nodup := by
  unfold flagged; split_ifs <;> simp [h]

theorem nodup_vecCells (N : ℕ) (q : VQ) : (vecCells N q).Nodup := by
  unfold vecCells
  rw [List.nodup_flatMap]
  refine ⟨fun i _ => by simp, ?_⟩
  refine List.Nodup.pairwise_of_forall_ne List.nodup_range ?_
  intro a _ b _ hab
  simp only [Function.onFun, List.disjoint_left, List.mem_cons, List.not_mem_nil, or_false]
  rintro x (rfl | rfl | rfl) h <;> simp [hab] at h

theorem nodup_scalCells (N : ℕ) (q : SQ) : (scalCells N q).Nodup :=
  List.Nodup.map (fun a b h => by simpa using h) List.nodup_range

/-- The file of a line, for every set of flags and every number of segments: there is a
list of columns, holding exactly once each component of each quantity asked for at each
node or segment, such that the titles, the units and the values of every row are those of
these columns, in the same order. -/
theorem C47_line (flags : List Char) (N : ℕ) :
    ∃ cs : List Cell, cs.Nodup ∧ (∀ c, c ∈ cs ↔ c.Wanted flags N) ∧
      lineHeader flags N = cs.map Cell.title ∧ lineUnits flags N = cs.map Cell.unit ∧
      ∀ (K : Type) (l : LineData K), l.N = N → lineRow flags l = cs.map (Cell.value l) := by
  refine ⟨cells flags N, ?_, ?_, lineHeader_eq flags N, lineUnits_eq flags N, ?_⟩
  · have V := fun c q => nodup_flagged flags c (nodup_vecCells N q)
    have S := fun c q => nodup_flagged flags c (nodup_scalCells N q)
    simp only [cells, List.nodup_append', V, S, List.disjoint_left, List.mem_append,
      mem_flagged, mem_vecCells, mem_scalCells, List.mem_singleton, List.nodup_singleton,
      true_and, and_true]
    refine ⟨⟨⟨⟨⟨⟨⟨⟨⟨?_, ?_⟩, ?_⟩, ?_⟩, ?_⟩, ?_⟩, ?_⟩, ?_⟩, ?_⟩, ?_⟩
    all_goals
      intro a ha hb
      obtain ⟨-, hb⟩ := hb
      first
        | (obtain ⟨i, rfl, -⟩ := hb; simp at ha)
        | (obtain ⟨i, j, rfl, -⟩ := hb; simp at ha)
  · intro c
    simp only [cells, List.mem_append, mem_flagged, mem_vecCells, mem_scalCells,
      List.mem_singleton]
    cases c with
    | time => simp [Cell.Wanted]
    | vec q i j => cases q <;> simp [Cell.Wanted, VQ.flag, VQ.count]
    | scal q i => cases q <;> simp [Cell.Wanted, SQ.flag, SQ.count]
  · rintro K l rfl
    exact lineRow_eq flags l

/-- In particular the numbers of titles, units and values agree. -/
theorem C47_line_length {K : Type} (flags : List Char) (l : LineData K) :
    (lineHeader flags l.N).length = (lineRow flags l).length ∧
    (lineUnits flags l.N).length = (lineRow flags l).length := by
  rw [lineHeader_eq, lineUnits_eq, lineRow_eq]
  simp

example : lineHeader "ts".toList 2 = ["Time", "Seg1Te", "Seg2Te", "Seg1St", "Seg2St"] := by
  decide +kernel

/-- Flags that ask for columns of a line but make no file: the curvatures and the seabed
forces, asked for alone, are silently lost. -/
theorem C47_line_flags_false :
    ¬ ∀ flags : List Char, (∃ c : Cell, c ≠ .time ∧ c.Wanted flags 10) → fileMade flags = true := by
  intro h
  have := h ['b'] ⟨.vec .b 0 0, by simp, by simp [Cell.Wanted, VQ.flag, VQ.count]⟩
  revert this; decide

/-- These are the only ones: any other flag of a line makes the file. -/
theorem C47_line_flags_partial (flags : List Char)
    (h : ∃ c : Cell, c ≠ .time ∧ c.Wanted (flags.filter fun f => f ≠ 'b' ∧ f ≠ 'K') 10) :
    fileMade flags = true := by
  have key : ∃ f ∈ flags, f ∈ "pvUDctsd".toList := by
    obtain ⟨c, hc, hw⟩ := h
    cases c with
    | time => exact absurd rfl hc
    | vec q i j =>
      obtain ⟨hf, -⟩ := hw
      rw [List.mem_filter] at hf
      obtain ⟨hf, hne⟩ := hf
      cases q <;> simp [VQ.flag] at hf hne <;> exact ⟨_, hf, by decide⟩
    | scal q i =>
      obtain ⟨hf, -⟩ := hw
      rw [List.mem_filter] at hf
      obtain ⟨hf, hne⟩ := hf
      cases q <;> simp [SQ.flag] at hf hne <;> exact ⟨_, hf, by decide⟩
  obtain ⟨f, hf, hm⟩ := key
  unfold fileMade
  rw [List.any_eq_true]
  exact ⟨f, hf, by simpa using hm⟩

/-- The file of a rod: titles, units and values of the same columns (positions, velocities
and net forces of the nodes), in the same order. -/
theorem C47_rod (flags : List Char) (N : ℕ) :
    ∃ cs : List (Option (Fin 3 × ℕ × Fin 3)), cs.Nodup ∧
      (∀ c, c ∈ cs ↔ ∀ q i j, c = some (q, i, j) → ["pvf".toList.get q] ⊆ flags ∧ i < N + 1) ∧
      rodHeader flags N = cs.map (fun c => match c with
        | none => "Time"
        | some (q, i, j) => "Node" ++ toString i ++ ["p", "v", "F"].get q ++ axis j) ∧
      rodUnits flags N = cs.map (fun c => match c with
        | none => "(s)"
        | some (q, _, _) => ["(m)", "(m/s)", "(N)"].get q) ∧
      ∀ (K : Type) (l : RodData K), l.N = N → rodRow flags l = cs.map (fun c => match c with
        | none => l.time
        | some (q, i, j) => [l.r i j, l.rd i j, l.Fnet i j].get q) := by
  let blk : Fin 3 → List (Option (Fin 3 × ℕ × Fin 3)) := fun q =>
    (List.range (N + 1)).flatMap fun i => [some (q, i, 0), some (q, i, 1), some (q, i, 2)]
  have hmem : ∀ q c, c ∈ blk q ↔ ∃ i j, c = some (q, i, j) ∧ i < N + 1 := by
    intro q c
    simp only [blk, List.mem_flatMap, List.mem_range, List.mem_cons, List.not_mem_nil, or_false]
    constructor
    · rintro ⟨i, hi, rfl | rfl | rfl⟩ <;> exact ⟨i, _, rfl, hi⟩
    · rintro ⟨i, j, rfl, hi⟩
      refine ⟨i, hi, ?_⟩
      fin_cases j <;> simp
  have hnd : ∀ q, (blk q).Nodup := by
    intro q
    simp only [blk]
    rw [List.nodup_flatMap]
    refine ⟨fun i _ => by simp, ?_⟩
    refine List.Nodup.pairwise_of_forall_ne List.nodup_range ?_
    intro a _ b _ hab
    simp only [Function.onFun, List.disjoint_left, List.mem_cons, List.not_mem_nil, or_false]
    rintro x (rfl | rfl | rfl) h <;> simp [hab] at h
  have hunit : ∀ (q : Fin 3) (f : Option (Fin 3 × ℕ × Fin 3) → String) (u : String),
      (∀ i j, f (some (q, i, j)) = u) →
      (blk q).map f = List.replicate (3 * N + 3) u := by
    intro q f u h
    rw [List.eq_replicate_iff]
    constructor
    · simp only [blk, List.length_map, List.length_flatMap, List.length_cons, List.length_nil]
      simp; ring
    · intro b hb
      rw [List.mem_map] at hb
      obtain ⟨a, ha, rfl⟩ := hb
      obtain ⟨i, j, rfl, -⟩ := (hmem q a).1 ha
      exact h i j
  refine ⟨[none] ++ flagged flags 'p' (blk 0) ++ flagged flags 'v' (blk 1) ++
    flagged flags 'f' (blk 2), ?_, ?_, ?_, ?_, ?_⟩
  · have V := fun c q => nodup_flagged flags c (hnd q)
    simp only [List.nodup_append', V, List.disjoint_left, List.mem_append, mem_flagged, hmem,
      List.mem_singleton, List.nodup_singleton, true_and, and_true]
    refine ⟨⟨?_, ?_⟩, ?_⟩
    all_goals
      rintro a ha ⟨-, i, j, rfl, -⟩
      simp at ha
  · intro c
    simp only [List.mem_append, mem_flagged, hmem, List.mem_singleton]
    rcases c with _ | ⟨q, i, j⟩
    · simp
    · fin_cases q <;> simp
  · simp only [List.map_append, map_flagged, blk, List.map_flatMap, List.map_cons, List.map_nil]
    rfl
  · simp only [List.map_append, map_flagged]
    rw [hunit 0 _ "(m)" (fun _ _ => rfl), hunit 1 _ "(m/s)" (fun _ _ => rfl),
      hunit 2 _ "(N)" (fun _ _ => rfl)]
    rfl
  · rintro K l rfl
    simp only [List.map_append, map_flagged, blk, List.map_flatMap, List.map_cons, List.map_nil]
    rfl

/-- The flag of the net forces of a rod, alone, makes no file; and documented flags of
rods (water velocity, drag, tension, damping, strain and its rate) make a file with only
the time. -/
theorem C47_rod_flags_false :
    fileMade ['f'] = false ∧
    ∀ f ∈ ['U', 'D', 'c', 't', 's', 'd'], ∀ N, fileMade [f] = true ∧ rodHeader [f] N = ["Time"] := by
  refine ⟨by decide, ?_⟩
  intro f hf N
  fin_cases hf <;> exact ⟨by decide, by simp [rodHeader, flagged]⟩

/-- The columns of the file of a body: title, unit and value. -/
def bodyColumns {K : Type} (time : K) (pos angles : Fin 3 → K) : List (String × String × K) :=
  [("Time", "(s)", time), ("x", "(m)", pos 0), ("y", "(m)", pos 1), ("z", "(m)", pos 2),
   ("roll", "(deg)", angles 0), ("pitch", "(deg)", angles 1), ("yaw", "(deg)", angles 2)]

/-- The file of a free or coupled pinned body begins with the titles, followed by the units exactly
when they are asked for, and each row has under each title the value it announces. -/
theorem C47_body_partial {K : Type} (t : BodyType) (ht : t = .free ∨ t = .cpldpin)
    (units : Bool) (time : K) (pos angles : Fin 3 → K) :
    bodyStart t units = (bodyColumns time pos angles).map (·.1) ::
      (if units = true then [(bodyColumns time pos angles).map (·.2.1)] else []) ∧
    bodyRow time pos angles = (bodyColumns time pos angles).map (·.2.2) := by
  rcases ht with rfl | rfl <;> cases units <;> simp [bodyStart, bodyRow, values3, bodyColumns]

/-- The files of coupled and fixed bodies have no titles. -/
theorem C47_body_false (units : Bool) :
    bodyStart .coupled units = [] ∧ bodyStart .fixed units = [] := ⟨rfl, rfl⟩

example : bodyStart .free true = [["Time", "x", "y", "z", "roll", "pitch", "yaw"],
    ["(s)", "(m)", "(m)", "(m)", "(deg)", "(deg)", "(deg)"]] ∧ (bodyStart .cpldpin false).length = 1 ∧
    bodyRow (1 : ℤ) (fun i => 2 + i.val) (fun i => 5 + i.val) = [1, 2, 3, 4, 5, 6, 7] := by
  refine ⟨rfl, rfl, ?_⟩
  decide

end MD.Output
