import Verif.Model.PointRow
import Verif.Props.Failures
import Verif.Props.Numbers

/-!
# C122: the columns of the list of points
-/

set_option linter.unusedSimpArgs false
set_option linter.unusedVariables false

namespace MD.PointRow

open MD.Text MD.Words MD.Failures

/-- The words for points and their abbreviations, and `Body` with the number of a body: what is said of the type and the parent. -/
def Attaches (n : ℕ) (w : Str) (t : PointType) (p : Parent) : Prop :=
  (∃ e ∈ pointTable, Letters w ∧ upper w = e.1.toList ∧ (t, p) = e.2) ∨
  ∃ A D, w = A ++ D ∧ Letters A ∧ upper A = "BODY".toList ∧ Digits D ∧ natOf D < 2 ^ 31 ∧ 1 ≤ natOf D ∧ natOf D ≤ n ∧ (t, p) = (.fixed, .body (natOf D - 1))

theorem attaches_word {n : ℕ} {w : Str} {t : PointType} {p : Parent} (h : Attaches n w t p) : pointWord n w = .ok (t, p) := by
  rcases h with ⟨e, he, hw, hu, k⟩ | ⟨A, D, rfl, hA, hA', hD, hs, h1, h2, k⟩
  · rw [(C84_point_words n w hw).1 e he hu, k]
  · rw [((C84_on_body n A D [] hA hA' hD hs (by intro c hc; simp at hc)).1 h1 h2).1, k]

theorem split_row (es : List Str) (h : ∀ s ∈ es, Entry s) : split ' ' (rowOf es) = es := C52_split_join ' ' es h

/-- C122: with nine entries, and with one or two behind them, the columns are those of the manual: attachment, place, mass, volume, drag area and added mass.
There is no force on the point. -/
theorem C122_columns_partial (n : ℕ) (num w x y z m v a b : Str) (rest : List Str) (h : ∀ s ∈ num :: w :: x :: y :: z :: m :: v :: a :: b :: rest, Entry s)
    (hr : rest.length ≤ 2) {t : PointType} {p : Parent} (hw : Attaches n w t p) :
    pointRow n (rowOf (num :: w :: x :: y :: z :: m :: v :: a :: b :: rest)) =
      .ok { type := t, parent := p, r0 := (atof x, atof y, atof z), M := atof m, V := atof v, F := (.fin 0, .fin 0, .fin 0), CdA := atof a, Ca := atof b } := by
  unfold pointRow
  rw [split_row _ h]
  dsimp only
  rw [attaches_word hw]
  match rest, hr with
  | [], _ => rfl
  | [_], _ => rfl
  | [_, _], _ => rfl

/-- C122: with twelve entries or more the columns are those of the manual for the older format: behind the volume there is a force, and then drag area and added mass.
The title of the section does not matter. -/
theorem C122_force (n : ℕ) (num w x y z m v a b c d e : Str) (rest : List Str)
    (h : ∀ s ∈ num :: w :: x :: y :: z :: m :: v :: a :: b :: c :: d :: e :: rest, Entry s) {t : PointType} {p : Parent} (hw : Attaches n w t p) :
    pointRow n (rowOf (num :: w :: x :: y :: z :: m :: v :: a :: b :: c :: d :: e :: rest)) =
      .ok { type := t, parent := p, r0 := (atof x, atof y, atof z), M := atof m, V := atof v, F := (atof a, atof b, atof c), CdA := atof d, Ca := atof e } := by
  unfold pointRow
  rw [split_row _ h]
  dsimp only
  rw [attaches_word hw]
  rfl

/-- C122 without the bound on the number of words is false: a remark of three words behind the columns of the manual changes the point. -/
theorem C122_remark_false : ¬ ∀ (n : ℕ) (es rest : List Str), es.length = 9 → (∀ s ∈ es ++ rest, Entry s) →
    pointRow n (rowOf (es ++ rest)) = pointRow n (rowOf es) := by
  intro h
  have k := h 0 ["1".toList, "Free".toList, "0".toList, "0".toList, "0".toList, "100".toList, "0".toList, "2".toList, "1".toList]
    ["!".toList, "east".toList, "buoy".toList] rfl (by unfold Entry; decide)
  revert k
  decide +kernel

/-- C122: rows with fewer than nine entries, and words that are no attachment, are refused. -/
theorem C122_refused (n : ℕ) (es : List Str) (h : ∀ s ∈ es, Entry s) :
    (es.length < 9 → pointRow n (rowOf es) = .refused) ∧
    ∀ w, es[1]? = some w → Letters w → (∀ e ∈ pointTable, upper w ≠ e.1.toList) → pointRow n (rowOf es) = .refused := by
  constructor
  · intro hl
    unfold pointRow
    rw [split_row _ h]
    split
    · simp at hl
      omega
    · rfl
  · intro w hw hL hno
    have k := (C84_point_words n w hL).2 hno
    unfold pointRow
    rw [split_row _ h]
    split
    · simp only [List.getElem?_cons_succ, List.getElem?_cons_zero, Option.some.injEq] at hw
      subst hw
      rw [k]
      rfl
    · rfl

/-- C122: whatever is written in a row, if it is accepted its third to seventh entries are place, mass and volume. -/
theorem C122_place (n : ℕ) (row : Str) (P : Props) (h : pointRow n row = .ok P) :
    ∃ num w x y z m v rest, split ' ' row = num :: w :: x :: y :: z :: m :: v :: rest ∧ 2 ≤ rest.length ∧
      pointWord n w = .ok (P.type, P.parent) ∧ P.r0 = (atof x, atof y, atof z) ∧ P.M = atof m ∧ P.V = atof v := by
  unfold pointRow at h
  split at h
  · next num w x y z m v a b rest hs =>
    obtain ⟨tp, h1, h2⟩ := bind_ok h
    refine ⟨num, w, x, y, z, m, v, a :: b :: rest, hs, by simp, ?_⟩
    split at h2 <;> (cases h2; exact ⟨h1, rfl, rfl, rfl⟩)
  · exact absurd h (by simp)

theorem atof_written (q : Written) (h : q.good) : atof q.text = .fin q.value := by
  rw [atof, C48_written q h]
  rfl

/-- C122: numbers in decimal notation in the columns of both formats are the properties of the point. -/
theorem C122_values (n : ℕ) (num w : Str) (x y z m v fx fy fz cda ca : Written) (hg : ∀ q ∈ [x, y, z, m, v, fx, fy, fz, cda, ca], q.good)
    (he : ∀ s ∈ num :: w :: [x, y, z, m, v, fx, fy, fz, cda, ca].map Written.text, Entry s) {t : PointType} {p : Parent} (hw : Attaches n w t p) :
    pointRow n (rowOf (num :: w :: [x, y, z, m, v, cda, ca].map Written.text)) =
      .ok { type := t, parent := p, r0 := (.fin x.value, .fin y.value, .fin z.value), M := .fin m.value, V := .fin v.value, F := (.fin 0, .fin 0, .fin 0),
            CdA := .fin cda.value, Ca := .fin ca.value } ∧
    pointRow n (rowOf (num :: w :: [x, y, z, m, v, fx, fy, fz, cda, ca].map Written.text)) =
      .ok { type := t, parent := p, r0 := (.fin x.value, .fin y.value, .fin z.value), M := .fin m.value, V := .fin v.value,
            F := (.fin fx.value, .fin fy.value, .fin fz.value), CdA := .fin cda.value, Ca := .fin ca.value } := by
  have k := fun q hq => atof_written q (hg q hq)
  constructor
  · refine (C122_columns_partial n num w _ _ _ _ _ _ _ [] ?_ (by simp) hw).trans ?_
    · intro s hs
      apply he
      simp only [List.map_cons, List.map_nil, List.mem_cons, List.not_mem_nil, or_false] at hs ⊢
      tauto
    · rw [k x (by simp), k y (by simp), k z (by simp), k m (by simp), k v (by simp), k cda (by simp), k ca (by simp)]
  · refine (C122_force n num w _ _ _ _ _ _ _ _ _ _ [] he hw).trans ?_
    rw [k x (by simp), k y (by simp), k z (by simp), k m (by simp), k v (by simp), k fx (by simp), k fy (by simp), k fz (by simp), k cda (by simp), k ca (by simp)]

/-- Numbers that are written so: -1.5 and 20. -/
example : (⟨some true, "1".toList, true, "5".toList, none⟩ : Written).good ∧ (⟨some true, "1".toList, true, "5".toList, none⟩ : Written).text = "-1.5".toList ∧
    (⟨none, "20".toList, false, [], none⟩ : Written).good ∧ Entry (⟨none, "20".toList, false, [], none⟩ : Written).text := by
  refine ⟨⟨by decide, by decide, by decide, by decide, by simp⟩, by decide, ⟨by decide, by decide, by decide, by decide, by simp⟩, ?_⟩
  unfold Entry
  decide

/-- The first row of the manual; a buoy; the same buoy with a remark of two words, and with one of four, which takes its drag area and its added mass
away and pushes it with two newtons. -/
example : pointRow 2 "1     Fixed      -500    0     -150    0      0       0      0".toList =
      .ok ⟨.fixed, .ground, (.fin (-500), .fin 0, .fin (-150)), .fin 0, .fin 0, (.fin 0, .fin 0, .fin 0), .fin 0, .fin 0⟩ ∧
    pointRow 2 "3 Body2 0 0 1.0 100 0.5 2 1 buoy east".toList =
      .ok ⟨.fixed, .body 1, (.fin 0, .fin 0, .fin 1), .fin 100, .fin (1 / 2), (.fin 0, .fin 0, .fin 0), .fin 2, .fin 1⟩ ∧
    pointRow 2 "3 Body2 0 0 1.0 100 0.5 2 1 ! buoy to the east".toList =
      .ok ⟨.fixed, .body 1, (.fin 0, .fin 0, .fin 1), .fin 100, .fin (1 / 2), (.fin 2, .fin 1, .fin 0), .fin 0, .fin 0⟩ ∧
    pointRow 2 "3 Body3 0 0 1.0 100 0.5 2 1".toList = .refused := by
  decide +kernel

/-- Words that attach. -/
example : Attaches 2 "fixed".toList .fixed .ground ∧ Attaches 2 "Body2".toList .fixed (.body 1) := by
  refine ⟨.inl ⟨("FIXED", .fixed, .ground), by decide, ?_, by decide, rfl⟩, .inr ⟨"Body".toList, "2".toList, by decide, ?_, by decide, ⟨by decide, ?_⟩, by decide, by decide,
    by decide, rfl⟩⟩
  · unfold Letters; decide
  · unfold Letters; decide
  · decide

end MD.PointRow
