import Verif.Model.RodRow
import Verif.Props.LineRow

/-!
# C124: the columns of the list of rods
-/

set_option linter.unusedSimpArgs false
set_option linter.unusedVariables false

namespace MD.RodRow

open MD.Text MD.Words MD.Reader MD.Failures

/-- The words for rods and their abbreviations, and `Body` with the number of a body, with or without `Pinned`: what is said of the type and the parent. -/
def Attaches (n : ℕ) (w : Str) (t : RodType) (p : Parent) : Prop :=
  (∃ e ∈ rodTable, Letters w ∧ upper w = e.1.toList ∧ (t, p) = e.2) ∨
  ∃ A D B, w = A ++ D ++ B ∧ Letters A ∧ upper A = "BODY".toList ∧ Digits D ∧ natOf D < 2 ^ 31 ∧ Letters B ∧ 1 ≤ natOf D ∧ natOf D ≤ n ∧ p = .body (natOf D - 1) ∧
    (B = [] ∧ t = .fixed ∨ (upper B = "PINNED".toList ∨ upper B = "PIN".toList) ∧ t = .pinned)

theorem attaches_word {n : ℕ} {w : Str} {t : RodType} {p : Parent} (h : Attaches n w t p) : rodWord n w = .ok (t, p) := by
  rcases h with ⟨e, he, hw, hu, k⟩ | ⟨A, D, B, rfl, hA, hA', hD, hs, hB, h1, h2, rfl, ⟨rfl, rfl⟩ | ⟨k, rfl⟩⟩
  · rw [(C84_rod_words n w hw).1 e he hu, k]
  · rw [List.append_nil]
    exact ((C84_on_body n A D [] hA hA' hD hs hB).1 h1 h2).2.1
  · exact ((C84_on_body n A D B hA hA' hD hs hB).1 h1 h2).2.2 k

/-- C124: a row with the columns of the manual and any number of words behind them: the rod has the class of that name, which is the last one if there are more, and the
attachment, the ends, the number of segments and the outputs of the row. -/
theorem C124_columns (types : List Str) (n : ℕ) (num t w k o : Str) (xa ya za xb yb zb : Written) (rest : List Str)
    (h : ∀ s ∈ num :: t :: w :: xa.text :: ya.text :: za.text :: xb.text :: yb.text :: zb.text :: k :: o :: rest, Entry s)
    (hg : ∀ q ∈ [xa, ya, za, xb, yb, zb], q.good) (hk : Digits k) (hs : natOf k < 2 ^ 31) (ht : t ∈ types) {τ : RodType} {p : Parent} (hw : Attaches n w τ p) :
    ∃ i, types[i]? = some t ∧ (∀ j, i < j → types[j]? ≠ some t) ∧
      rodRow types n (rowOf (num :: t :: w :: xa.text :: ya.text :: za.text :: xb.text :: yb.text :: zb.text :: k :: o :: rest)) =
        .ok { cls := i, type := τ, parent := p, rA := (.fin xa.value, .fin ya.value, .fin za.value), rB := (.fin xb.value, .fin yb.value, .fin zb.value),
              segs := natOf k, out := o } := by
  obtain ⟨c1, c2⟩ := C70_types types t
  match hf : findType types t with
  | none => exact absurd ht (c2.1 hf)
  | some i =>
    refine ⟨i, (c1 i hf).1, (c1 i hf).2, ?_⟩
    have a := fun q hq => PointRow.atof_written q (hg q hq)
    unfold rodRow
    rw [PointRow.split_row _ h]
    dsimp only
    rw [LineRow.count_digits k hk hs, attaches_word hw, hf, a xa (by simp), a ya (by simp), a za (by simp), a xb (by simp), a yb (by simp), a zb (by simp)]
    rfl

/-- C124: whatever is written in a row, if a rod is made of it there is a class of the name in its second entry, and its attachment is that of the word in the third. -/
theorem C124_exists (types : List Str) (n : ℕ) (row : Str) (P : Props) (h : rodRow types n row = .ok P) :
    ∃ num t w rest, split ' ' row = num :: t :: w :: rest ∧ 8 ≤ rest.length ∧ types[P.cls]? = some t ∧ rodWord n w = .ok (P.type, P.parent) := by
  unfold rodRow at h
  split at h
  · next num t w xa ya za xb yb zb k o rest hs =>
    obtain ⟨N, h1, h2⟩ := bind_ok h
    obtain ⟨tp, h3, h4⟩ := bind_ok h2
    split at h4
    · exact absurd h4 (by simp)
    · next i hi =>
      cases h4
      exact ⟨num, t, w, _, hs, by simp, ((C70_types types t).1 i hi).1, h3⟩
  · exact absurd h (by simp)

/-- C124: no rod is made of a row with fewer than eleven entries or with a class that is not there. -/
theorem C124_none (types : List Str) (n : ℕ) (es : List Str) (h : ∀ s ∈ es, Entry s) (P : Props) :
    (es.length < 11 → rodRow types n (rowOf es) = .refused) ∧ (∀ t, es[1]? = some t → t ∉ types → rodRow types n (rowOf es) ≠ .ok P) := by
  constructor
  · intro hl
    unfold rodRow
    rw [PointRow.split_row _ h]
    split
    · simp at hl
      omega
    · rfl
  · intro t h1 ht hP
    obtain ⟨num, t', w, rest, hs, -, hc, -⟩ := C124_exists types n _ P hP
    rw [PointRow.split_row _ h] at hs
    rw [hs] at h1
    simp only [List.getElem?_cons_succ, List.getElem?_cons_zero, Option.some.injEq] at h1
    subst h1
    exact ht (List.mem_of_getElem? hc)

/-- C124: a number of segments that is negative is accepted. -/
theorem C124_segments_false : ¬ ∀ (types : List Str) (n : ℕ) (row : Str) (P : Props), rodRow types n row = .ok P → 0 ≤ P.segs := by
  intro h
  have k := h ["Can".toList] 0 "1 Can Free 0 0 2 0 0 15 -8 p".toList
    ⟨0, .free, .nothing, (.fin 0, .fin 0, .fin 2), (.fin 0, .fin 0, .fin 15), -8, "p".toList⟩ (by decide +kernel)
  exact absurd k (by decide)

/-- The rows of the manual, the second with a remark, and one with a body that is not there. -/
example : rodRow ["Can".toList] 1 "1      Can      Body1      0     0     2     0     0     15   8         p".toList =
      .ok ⟨0, .fixed, .body 0, (.fin 0, .fin 0, .fin 2), (.fin 0, .fin 0, .fin 15), 8, "p".toList⟩ ∧
    rodRow ["Can".toList] 1 "2      Can   Body1Pinned   2     0     2     5     0     15   8         p ! the inclined can of the two".toList =
      .ok ⟨0, .pinned, .body 0, (.fin 2, .fin 0, .fin 2), (.fin 5, .fin 0, .fin 15), 8, "p".toList⟩ ∧
    rodRow ["Can".toList] 1 "3 Can Body2 0 0 2 0 0 15 8 p".toList = .refused := by
  decide +kernel

/-- Words that attach. -/
example : Attaches 1 "Body1Pinned".toList .pinned (.body 0) ∧ Attaches 1 "Body1".toList .fixed (.body 0) := by
  refine ⟨.inr ⟨"Body".toList, "1".toList, "Pinned".toList, by decide, ?_, by decide, ⟨by decide, ?_⟩, by decide, ?_, by decide, by decide, by decide, .inr ⟨.inl (by decide), rfl⟩⟩,
    .inr ⟨"Body".toList, "1".toList, [], by decide, ?_, by decide, ⟨by decide, ?_⟩, by decide, ?_, by decide, by decide, by decide, .inl ⟨rfl, rfl⟩⟩⟩ <;>
    (try unfold Letters) <;> decide

end MD.RodRow
