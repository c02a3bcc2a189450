import Verif.Model.BodyRow
import Verif.Props.PointRow
import Verif.Props.Reader

/-!
# C125: the columns of the list of bodies
-/

set_option linter.unusedSimpArgs false
set_option linter.unusedVariables false

namespace MD.BodyRow

open MD.Text MD.Words MD.Reader MD.Failures

/-- Numbers with bars between them. -/
def bars (l : List Written) : Str := ['|'].intercalate (l.map Written.text)

/-- Numbers that can stand between bars. -/
def Fits (l : List Written) : Prop := ∀ q ∈ l, q.good ∧ q.text ≠ [] ∧ '|' ∉ q.text

theorem split_bars (l : List Written) (h : Fits l) : (split '|' (bars l)).map atof = l.map fun q => Val.fin q.value := by
  rw [bars, C52_split_join '|' _ (by
    intro s hs
    obtain ⟨q, hq, rfl⟩ := List.mem_map.1 hs
    exact (h q hq).2), List.map_map]
  exact List.map_congr_left fun q hq => PointRow.atof_written q (h q hq).1

/-- C125: a row with the columns of the manual and any number of words behind them: attachment, place, angles, mass and volume are those of the row; one number for the centre
of gravity is its height, one for the inertia or the added mass is that of all three axes, three are those of the axes; one number for the drag is that of all six directions,
of two the first is that of the translations and the second that of the rotations. Of three or six the first is lost, where the manual has it for the first axis. -/
theorem C125_columns_partial (num w : Str) (x y z rx ry rz m v : Written) (cg i cd ca : List Written) (rest : List Str)
    (h : ∀ s ∈ num :: w :: x.text :: y.text :: z.text :: rx.text :: ry.text :: rz.text :: m.text :: bars cg :: bars i :: v.text :: bars cd :: bars ca :: rest, Entry s)
    (hg : ∀ q ∈ [x, y, z, rx, ry, rz, m, v], q.good) (h1 : Fits cg) (h2 : Fits i) (h3 : Fits cd) (h4 : Fits ca)
    (n1 : cg.length = 1 ∨ cg.length = 3) (n2 : i.length = 1 ∨ i.length = 3) (n3 : cd.length = 1 ∨ cd.length = 2 ∨ cd.length = 3 ∨ cd.length = 6) (n4 : ca.length = 1 ∨ ca.length = 3) :
    ∃ P, bodyRow (rowOf (num :: w :: x.text :: y.text :: z.text :: rx.text :: ry.text :: rz.text :: m.text :: bars cg :: bars i :: v.text :: bars cd :: bars ca :: rest)) = .ok P ∧
      P.type = bodyWord w ∧ P.place = (.fin x.value, .fin y.value, .fin z.value) ∧ P.angles = (.fin rx.value, .fin ry.value, .fin rz.value) ∧
      P.M = .fin m.value ∧ P.V = .fin v.value ∧
      (∀ a, cg = [a] → P.cg = ![.fin 0, .fin 0, .fin a.value]) ∧ (∀ a b c, cg = [a, b, c] → P.cg = ![.fin a.value, .fin b.value, .fin c.value]) ∧
      (∀ a, i = [a] → ∀ k, P.inertia k = .fin a.value) ∧ (∀ a b c, i = [a, b, c] → P.inertia = ![.fin a.value, .fin b.value, .fin c.value]) ∧
      (∀ a, cd = [a] → ∀ k, P.CdA k = .fin a.value) ∧ (∀ a b, cd = [a, b] → ∀ k, P.CdA k = if k.1 < 3 then .fin a.value else .fin b.value) ∧
      (∀ a b c, cd = [a, b, c] → P.CdA = ![.fin 0, .fin b.value, .fin c.value, .fin 0, .fin b.value, .fin c.value]) ∧
      (∀ a b c d e f, cd = [a, b, c, d, e, f] → P.CdA = ![.fin 0, .fin b.value, .fin c.value, .fin d.value, .fin e.value, .fin f.value]) ∧
      (∀ a, ca = [a] → ∀ k, P.Ca k = if k.1 < 3 then .fin a.value else .fin 0) ∧
      (∀ a b c, ca = [a, b, c] → P.Ca = ![.fin a.value, .fin b.value, .fin c.value, .fin 0, .fin 0, .fin 0]) := by
  have A := fun q hq => PointRow.atof_written q (hg q hq)
  have G : ∃ r, bodyCG (cg.map fun q => Val.fin q.value) = some r ∧ (∀ a, cg = [a] → r = ![.fin 0, .fin 0, .fin a.value]) ∧
      ∀ a b c, cg = [a, b, c] → r = ![.fin a.value, .fin b.value, .fin c.value] := by
    match cg, n1 with
    | [a], _ => exact ⟨_, rfl, by rintro _ ⟨⟩; rfl, by simp⟩
    | [a, b, c], _ => exact ⟨_, rfl, by simp, by rintro _ _ _ ⟨⟩; rfl⟩
  have J : ∃ r, bodyInertia (i.map fun q => Val.fin q.value) = some r ∧ (∀ a, i = [a] → ∀ k, r k = .fin a.value) ∧
      ∀ a b c, i = [a, b, c] → r = ![.fin a.value, .fin b.value, .fin c.value] := by
    match i, n2 with
    | [a], _ => exact ⟨_, rfl, by rintro _ ⟨⟩ k; fin_cases k <;> rfl, by simp⟩
    | [a, b, c], _ => exact ⟨_, rfl, by simp, by rintro _ _ _ ⟨⟩; rfl⟩
  have D : ∃ r, bodyCdA (cd.map fun q => Val.fin q.value) = some r ∧ (∀ a, cd = [a] → ∀ k, r k = .fin a.value) ∧
      (∀ a b, cd = [a, b] → ∀ k, r k = if k.1 < 3 then .fin a.value else .fin b.value) ∧
      (∀ a b c, cd = [a, b, c] → r = ![.fin 0, .fin b.value, .fin c.value, .fin 0, .fin b.value, .fin c.value]) ∧
      ∀ a b c d e f, cd = [a, b, c, d, e, f] → r = ![.fin 0, .fin b.value, .fin c.value, .fin d.value, .fin e.value, .fin f.value] := by
    match cd, n3 with
    | [a], _ => exact ⟨_, rfl, by rintro _ ⟨⟩ k; fin_cases k <;> rfl, by simp, by simp, by simp⟩
    | [a, b], _ => exact ⟨_, rfl, by simp, by rintro _ _ ⟨⟩ k; fin_cases k <;> rfl, by simp, by simp⟩
    | [a, b, c], _ => exact ⟨_, rfl, by simp, by simp, by rintro _ _ _ ⟨⟩; rfl, by simp⟩
    | [a, b, c, d, e, f], _ => exact ⟨_, rfl, by simp, by simp, by simp, by rintro _ _ _ _ _ _ ⟨⟩; rfl⟩
  have C : ∃ r, bodyCa (ca.map fun q => Val.fin q.value) = some r ∧ (∀ a, ca = [a] → ∀ k, r k = if k.1 < 3 then .fin a.value else .fin 0) ∧
      ∀ a b c, ca = [a, b, c] → r = ![.fin a.value, .fin b.value, .fin c.value, .fin 0, .fin 0, .fin 0] := by
    match ca, n4 with
    | [a], _ => exact ⟨_, rfl, by rintro _ ⟨⟩ k; fin_cases k <;> rfl, by simp⟩
    | [a, b, c], _ => exact ⟨_, rfl, by simp, by rintro _ _ _ ⟨⟩; rfl⟩
  obtain ⟨g, g0, g1, g2⟩ := G
  obtain ⟨j, j0, j1, j2⟩ := J
  obtain ⟨d, d0, d1, d2, d3, d4⟩ := D
  obtain ⟨c, c0, c1, c2⟩ := C
  refine ⟨⟨bodyWord w, (.fin x.value, .fin y.value, .fin z.value), (.fin rx.value, .fin ry.value, .fin rz.value), .fin m.value, g, j, .fin v.value, d, c⟩, ?_, rfl, rfl, rfl, rfl, rfl,
    g1, g2, j1, j2, d1, d2, d3, d4, c1, c2⟩
  unfold bodyRow
  rw [PointRow.split_row _ h]
  dsimp only
  rw [split_bars cg h1, split_bars i h2, split_bars cd h3, split_bars ca h4, g0, j0, d0, c0, A x (by simp), A y (by simp), A z (by simp), A rx (by simp), A ry (by simp),
    A rz (by simp), A m (by simp), A v (by simp)]

/-- C125: rows with fewer than fourteen entries are refused. -/
theorem C125_short (es : List Str) (h : ∀ s ∈ es, Entry s) (hl : es.length < 14) : bodyRow (rowOf es) = .refused := by
  unfold bodyRow
  rw [PointRow.split_row _ h]
  split
  · simp at hl
    omega
  · rfl

theorem three {l : List Val} {r : Fin 3 → Val} (h : bodyCG l = some r ∨ bodyInertia l = some r) : l.length = 1 ∨ l.length = 3 := by
  match l with
  | [] => simp [bodyCG, bodyInertia] at h
  | [_] => simp
  | [_, _] => simp [bodyCG, bodyInertia] at h
  | [_, _, _] => simp
  | _ :: _ :: _ :: _ :: _ => simp [bodyCG, bodyInertia] at h

theorem three' {l : List Val} {r : Fin 6 → Val} (h : bodyCa l = some r) : l.length = 1 ∨ l.length = 3 := by
  match l with
  | [] => simp [bodyCa] at h
  | [_] => simp
  | [_, _] => simp [bodyCa] at h
  | [_, _, _] => simp
  | _ :: _ :: _ :: _ :: _ => simp [bodyCa] at h

theorem six {l : List Val} {r : Fin 6 → Val} (h : bodyCdA l = some r) : l.length = 1 ∨ l.length = 2 ∨ l.length = 3 ∨ l.length = 6 := by
  match l with
  | [] => simp [bodyCdA] at h
  | [_] => simp
  | [_, _] => simp
  | [_, _, _] => simp
  | [_, _, _, _] => simp [bodyCdA] at h
  | [_, _, _, _, _] => simp [bodyCdA] at h
  | [_, _, _, _, _, _] => simp
  | _ :: _ :: _ :: _ :: _ :: _ :: _ :: _ => simp [bodyCdA] at h

/-- C125: whatever is written in a row, if it is accepted there are one or three numbers for centre of gravity, inertia and added mass, and one, two, three or six for the drag. -/
theorem C125_counts (row : Str) (P : Props) (h : bodyRow row = .ok P) :
    ∃ cg i cd ca, (split ' ' row)[9]? = some cg ∧ (split ' ' row)[10]? = some i ∧ (split ' ' row)[12]? = some cd ∧ (split ' ' row)[13]? = some ca ∧
      (∀ e ∈ [cg, i, ca], (split '|' e).length = 1 ∨ (split '|' e).length = 3) ∧
      ((split '|' cd).length = 1 ∨ (split '|' cd).length = 2 ∨ (split '|' cd).length = 3 ∨ (split '|' cd).length = 6) := by
  unfold bodyRow at h
  split at h
  · next num w x y z rx ry rz m cg i v cd ca rest hs =>
    rw [hs]
    refine ⟨cg, i, cd, ca, rfl, rfl, rfl, rfl, ?_⟩
    split at h
    · next g j d a h1 h2 h3 h4 =>
      have k1 := three (.inl h1)
      have k2 := three (.inr h2)
      have k3 := six h3
      have k4 := three' h4
      rw [List.length_map] at k1 k2 k3 k4
      refine ⟨?_, k3⟩
      intro e he
      simp only [List.mem_cons, List.not_mem_nil, or_false] at he
      rcases he with rfl | rfl | rfl
      exacts [k1, k2, k4]
    · exact absurd h (by simp)
  · exact absurd h (by simp)

/-- C125: a space behind a bar, which the manual forbids, is no error if there are words enough: three numbers for the centre of gravity that are written so are taken for the centre,
the inertia and the volume, and the others move along. -/
theorem C125_space_false : ¬ ∀ (row : Str) (P : Props), '|' ∈ row → bodyRow row = .ok P → ∃ e ∈ split ' ' row, 2 ≤ (split '|' e).length := by
  intro h
  have k : ∃ P, bodyRow "1 free 0 0 0 0 0 0 10 1| 2| 3 5 7".toList = .ok P := by
    refine ⟨⟨.free, (.fin 0, .fin 0, .fin 0), (.fin 0, .fin 0, .fin 0), .fin 10, ![.fin 0, .fin 0, .fin 1], ![.fin 2, .fin 2, .fin 2], .fin 3,
      ![.fin 5, .fin 5, .fin 5, .fin 5, .fin 5, .fin 5], ![.fin 7, .fin 7, .fin 7, .fin 0, .fin 0, .fin 0]⟩, by decide +kernel⟩
  obtain ⟨P, hP⟩ := k
  have := h _ P (by decide) hP
  revert this
  decide +kernel

/-- The row of the manual, and one with bars, a remark and a drag of three numbers, the first of which is lost (C49). -/
example : bodyRow "1     coupled     0     0      0     0       0      0       0     0     0        0       0      0".toList =
      .ok ⟨.coupled, (.fin 0, .fin 0, .fin 0), (.fin 0, .fin 0, .fin 0), .fin 0, ![.fin 0, .fin 0, .fin 0], ![.fin 0, .fin 0, .fin 0], .fin 0,
        ![.fin 0, .fin 0, .fin 0, .fin 0, .fin 0, .fin 0], ![.fin 0, .fin 0, .fin 0, .fin 0, .fin 0, .fin 0]⟩ ∧
    bodyRow "2 Free 1 2 -3 0 0 90 100 0|1|-2 7 0.5 4|5 1|2|3 a buoy".toList =
      .ok ⟨.free, (.fin 1, .fin 2, .fin (-3)), (.fin 0, .fin 0, .fin 90), .fin 100, ![.fin 0, .fin 1, .fin (-2)], ![.fin 7, .fin 7, .fin 7], .fin (1 / 2),
        ![.fin 4, .fin 4, .fin 4, .fin 5, .fin 5, .fin 5], ![.fin 1, .fin 2, .fin 3, .fin 0, .fin 0, .fin 0]⟩ ∧
    bodyRow "2 Free 1 2 -3 0 0 90 100 0|1 7 0.5 4|5 1|2|3".toList = .refused := by
  decide +kernel

/-- Numbers that fit. -/
example : Fits [⟨none, "4".toList, false, [], none⟩, ⟨some true, "5".toList, false, [], none⟩] ∧ bars [⟨none, "4".toList, false, [], none⟩, ⟨some true, "5".toList, false, [], none⟩] = "4|-5".toList := by
  refine ⟨?_, by decide⟩
  intro q hq
  simp only [List.mem_cons, List.not_mem_nil, or_false] at hq
  rcases hq with rfl | rfl <;> exact ⟨⟨by decide, by decide, by decide, by decide, by simp⟩, by decide, by decide⟩

end MD.BodyRow
