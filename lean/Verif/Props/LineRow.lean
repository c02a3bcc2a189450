import Verif.Model.LineRow
import Verif.Props.PointRow
import Verif.Props.Reader

/-!
# C123: the columns of the list of lines
-/

set_option linter.unusedSimpArgs false
set_option linter.unusedVariables false

namespace MD.LineRow

open MD.Text MD.Words MD.Scheme MD.Reader MD.Failures

/-- What a word says of an end: the number of a point, with or without letters for it, or `R`, the number of a rod and `A` or `B`; numbers count from one. -/
def Ends (nP nR : ℕ) (w : Str) (x : Words.End) : Prop :=
  ∃ A D B, w = A ++ D ++ B ∧ Letters A ∧ Digits D ∧ natOf D < 2 ^ 31 ∧ Letters B ∧
    (((A = [] ∨ upper A = "C".toList ∨ upper A = "CON".toList ∨ upper A = "P".toList ∨ upper A = "POINT".toList) ∧
        1 ≤ natOf D ∧ natOf D ≤ nP ∧ x = .point (natOf D - 1)) ∨
      ((upper A = "R".toList ∨ upper A = "ROD".toList) ∧ 1 ≤ natOf D ∧ natOf D ≤ nR ∧
        (upper B = "A".toList ∧ x = .rod (natOf D - 1) true ∨ upper B = "B".toList ∧ x = .rod (natOf D - 1) false)))

theorem ends_word {nP nR : ℕ} {w : Str} {x : Words.End} (h : Ends nP nR w x) : endWord nP nR w = .ok x := by
  obtain ⟨A, D, B, rfl, hA, hD, hs, hB, ⟨k, k1, k2, rfl⟩ | ⟨k, k1, k2, k3⟩⟩ := h
  · rw [(C84_line_ends nP nR A D B hA hD hs hB).1 k, if_pos ⟨k1, k2⟩]
  · rw [(C84_line_ends nP nR A D B hA hD hs hB).2.1 k, if_pos ⟨k1, k2⟩]
    rcases k3 with ⟨k3, rfl⟩ | ⟨k3, rfl⟩
    · rw [if_pos k3]
    · rw [k3, if_neg (by decide), if_pos rfl]

theorem count_digits (D : Str) (h : Digits D) (hs : natOf D < 2 ^ 31) : count D = .ok (natOf D) := by
  have k := stoi_numeral D [] h.1 h.2 (by simp) hs
  rw [List.append_nil] at k
  rw [count, k]

/-- C123: a row in the present format, with any number of words behind its columns: the line has the type of that name, which is the last one if there are
more, the ends, the length, the number of segments and the outputs of the row. -/
theorem C123_columns (types : List Str) (nP nR : ℕ) (num t a b n o : Str) (l : Written) (rest : List Str)
    (h : ∀ s ∈ num :: t :: a :: b :: l.text :: n :: o :: rest, Entry s) (hl : l.good) (hn : Digits n) (hs : natOf n < 2 ^ 31)
    (ht : t ∈ types) {x y : Words.End} (ha : Ends nP nR a x) (hb : Ends nP nR b y) :
    ∃ i, types[i]? = some t ∧ (∀ j, i < j → types[j]? ≠ some t) ∧
      lineRow types nP nR (rowOf (num :: t :: a :: b :: l.text :: n :: o :: rest)) =
        .ok { type := i, endA := x, endB := y, len := .fin l.value, segs := natOf n, out := o } := by
  obtain ⟨c1, c2⟩ := C70_types types t
  match hf : findType types t with
  | none => exact absurd ht (c2.1 hf)
  | some i =>
    refine ⟨i, (c1 i hf).1, (c1 i hf).2, ?_⟩
    unfold lineRow
    rw [PointRow.split_row _ h]
    dsimp only
    rw [count_digits n hn hs, hf, ends_word ha, ends_word hb, PointRow.atof_written l hl]
    rfl

/-- C123: rows with fewer than seven entries, and rows with a type that is not there, are refused. -/
theorem C123_refused (types : List Str) (nP nR : ℕ) (es : List Str) (h : ∀ s ∈ es, Entry s) :
    (es.length < 7 → lineRow types nP nR (rowOf es) = .refused) ∧
    ∀ t n, es[1]? = some t → t ∉ types → es[5]? = some n → Digits n → natOf n < 2 ^ 31 → lineRow types nP nR (rowOf es) = .refused := by
  constructor
  · intro hl
    unfold lineRow
    rw [PointRow.split_row _ h]
    split
    · simp at hl
      omega
    · rfl
  · intro t n h1 ht h5 hn hs
    unfold lineRow
    rw [PointRow.split_row _ h]
    split
    · simp only [List.getElem?_cons_succ, List.getElem?_cons_zero, Option.some.injEq] at h1 h5
      subst h1 h5
      rw [count_digits _ hn hs, (C70_types types _).2.2 ht]
      rfl
    · rfl

/-- C123: whatever is written in a row, if it is accepted there is a type, and there are points or rods, of the names and numbers of the row. -/
theorem C123_exists (types : List Str) (nP nR : ℕ) (row : Str) (P : Props) (h : lineRow types nP nR row = .ok P) :
    P.type < types.length ∧ Exists nP nR P.endA ∧ Exists nP nR P.endB := by
  unfold lineRow at h
  split at h
  · next num t a b l n o rest hs =>
    obtain ⟨N, h1, h2⟩ := bind_ok h
    split at h2
    · exact absurd h2 (by simp)
    · next i hi =>
      obtain ⟨x, h3, h4⟩ := bind_ok h2
      obtain ⟨y, h5, h6⟩ := bind_ok h4
      cases h6
      refine ⟨?_, endWord_ok h3, endWord_ok h5⟩
      have := ((C70_types types t).1 i hi).1
      exact (List.getElem?_eq_some_iff.1 this).1
  · exact absurd h (by simp)

/-- C123 for the older format (number, type, length, segments, end A, end B, outputs): not even where both headings are those of the older format is a row read so. -/
theorem C123_older_false : ¬ ∀ (types : List Str) (nP nR : ℕ) (num t a b n o : Str) (l : Written) (P : Props),
    (∀ s ∈ [num, t, l.text, n, a, b, o], Entry s) → l.good → lineRow types nP nR (rowOf [num, t, l.text, n, a, b, o]) = .ok P → P.len = .fin l.value := by
  intro h
  have k := h ["nylon".toList] 4 0 "1".toList "nylon".toList "2".toList "1".toList "4".toList "p".toList ⟨none, "3".toList, true, "0".toList, none⟩
    ⟨0, .point 2, .point 3, .fin 2, 1, "p".toList⟩ (by unfold Entry; decide) ⟨by decide, by decide, by decide, by decide, by simp⟩ (by decide +kernel)
  have v : atof "3.0".toList = .fin (⟨none, "3".toList, true, "0".toList, none⟩ : Written).value :=
    PointRow.atof_written ⟨none, "3".toList, true, "0".toList, none⟩ ⟨by decide, by decide, by decide, by decide, by simp⟩
  rw [← v] at k
  revert k
  decide +kernel

/-- C123: numbers of segments that are negative or nothing, and lengths that are no numbers, are accepted. -/
theorem C123_senseless_false : ¬ ∀ (types : List Str) (nP nR : ℕ) (row : Str) (P : Props), lineRow types nP nR row = .ok P → 1 ≤ P.segs ∧ ∃ q, 0 < q ∧ P.len = .fin q := by
  intro h
  have k := h ["Chain".toList] 2 0 "1 Chain 1 2 long many p".toList ⟨0, .point 0, .point 1, .fin 0, 0, "p".toList⟩ (by decide +kernel)
  exact absurd k.1 (by decide)

/-- The row of the manual with a remark; ends on rods; a row of the manual for the older format, which is refused as there are no three hundred points, and one of the same
format with a short line, which is taken for another line; a negative number of segments. -/
example : lineRow ["Rope".toList, "Chain".toList] 2 0 "1     Chain       1        2        300        20       p  ! a remark of any length".toList =
      .ok ⟨1, .point 0, .point 1, .fin 300, 20, "p".toList⟩ ∧
    lineRow ["Chain".toList] 2 3 "1 Chain R3A Con2 12.5 4 -".toList = .ok ⟨0, .rod 2 true, .point 1, .fin (25 / 2), 4, "-".toList⟩ ∧
    lineRow ["nylon".toList] 6 0 "1        nylon     300.0        50        2         1        p".toList = .refused ∧
    lineRow ["nylon".toList] 6 0 "1        nylon     3.0        4        2         1        p".toList = .ok ⟨0, .point 2, .point 3, .fin 2, 1, "p".toList⟩ ∧
    lineRow ["nylon".toList] 6 0 "1 nylon 1 2 30 -4 p".toList = .ok ⟨0, .point 0, .point 1, .fin 30, -4, "p".toList⟩ := by
  decide +kernel

/-- Words for ends. -/
example : Ends 2 3 "2".toList (.point 1) ∧ Ends 2 3 "R3A".toList (.rod 2 true) := by
  refine ⟨⟨[], "2".toList, [], by decide, ?_, ⟨by decide, ?_⟩, by decide, ?_, .inl ⟨.inl rfl, by decide, by decide, by decide⟩⟩,
    ⟨"R".toList, "3".toList, "A".toList, by decide, ?_, ⟨by decide, ?_⟩, by decide, ?_, .inr ⟨.inl (by decide), by decide, by decide, .inl ⟨by decide, by decide⟩⟩⟩⟩ <;>
    (try unfold Letters) <;> decide

end MD.LineRow
