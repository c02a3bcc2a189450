import Verif.Model.Failures
import Verif.Props.Words
import Verif.Props.Scheme
import Verif.Props.Attach

/-!
# C121: the rows of the section of failures
-/

set_option linter.unusedSimpArgs false
set_option linter.unusedVariables false

namespace MD.Failures

open MD.Text MD.Words
open MD.Attach (Support Fail Sys checkFails AttachedTo Consistent)

/-! ## Specification -/

/-- Entries of a row: not empty, without blanks. -/
def Entry (s : Str) : Prop := s ≠ [] ∧ ' ' ∉ s

/-- A row of entries. -/
def rowOf (es : List Str) : Str := [' '].intercalate es

/-- The numbers of lines, with commas between them. -/
def commas (ds : List Str) : Str := [','].intercalate ds

/-! ## Lemmas -/

theorem lineNumber_digits (n : ℕ) (D : Str) (h : Digits D) (hs : natOf D < 2 ^ 31) :
    lineNumber n D = if 1 ≤ natOf D ∧ natOf D ≤ n then .ok (natOf D - 1) else .refused := by
  have h1 := Scheme.stoi_numeral D [] h.1 h.2 (by simp) hs
  rw [List.append_nil] at h1
  unfold lineNumber
  rw [h1]
  dsimp only
  rw [Scheme.toUnsigned_nat _ hs]
  by_cases hc : natOf D = 0 ∨ n < natOf D
  · rw [if_pos hc, if_neg (by omega)]
  · rw [if_neg hc, if_pos (by omega)]

theorem lineNumbers_digits (n : ℕ) (ds : List Str) (h : ∀ d ∈ ds, Digits d ∧ natOf d < 2 ^ 31) :
    lineNumbers n ds = if ∀ d ∈ ds, 1 ≤ natOf d ∧ natOf d ≤ n then .ok (ds.map fun d => natOf d - 1) else .refused := by
  induction ds with
  | nil => simp [lineNumbers]
  | cons d ds ih =>
    obtain ⟨h1, h2⟩ := h d List.mem_cons_self
    rw [lineNumbers, lineNumber_digits n d h1 h2, ih fun x hx => h x (List.mem_cons_of_mem _ hx)]
    simp only [List.forall_mem_cons, List.map_cons]
    by_cases c1 : 1 ≤ natOf d ∧ natOf d ≤ n
    · rw [if_pos c1]
      by_cases c2 : ∀ d ∈ ds, 1 ≤ natOf d ∧ natOf d ≤ n
      · rw [if_pos c2, if_pos ⟨c1, c2⟩]; rfl
      · rw [if_neg c2, if_neg fun k => c2 k.2]; rfl
    · simp only [c1, false_and, if_false]; rfl

theorem digit_not (c : Char) (h : isDigit c = true) : c ≠ ' ' ∧ c ≠ ',' := by
  constructor <;> (rintro rfl; exact absurd h (by decide))

theorem letter_not (c : Char) (h : isAlpha c = true) : c ≠ ' ' := by
  rintro rfl; exact absurd h (by decide)

theorem commas_mem (ds : List Str) (c : Char) (h : c ∈ commas ds) : c = ',' ∨ ∃ d ∈ ds, c ∈ d := by
  unfold commas at h
  induction ds with
  | nil => simp [List.intercalate] at h
  | cons d ds ih =>
    cases ds with
    | nil => right; exact ⟨d, by simp, by simpa [List.intercalate] using h⟩
    | cons e es =>
      have h' : c ∈ d ∨ c = ',' ∨ c ∈ [','].intercalate (e :: es) := by
        simpa [List.intercalate, List.intersperse] using h
      rcases h' with h' | h' | h'
      · exact .inr ⟨d, by simp, h'⟩
      · exact .inl h'
      · rcases ih h' with k | ⟨x, hx, k⟩
        · exact .inl k
        · exact .inr ⟨x, List.mem_cons_of_mem _ hx, k⟩

theorem commas_entry (ds : List Str) (hne : ds ≠ []) (h : ∀ d ∈ ds, Digits d) : Entry (commas ds) := by
  constructor
  · cases ds with
    | nil => exact absurd rfl hne
    | cons d ds =>
      have := (h d List.mem_cons_self).1
      cases ds with
      | nil => simpa [commas, List.intercalate] using this
      | cons e es =>
        intro k
        apply this
        simp [commas, List.intercalate, List.intersperse] at k
  · intro k
    rcases commas_mem ds _ k with k | ⟨d, hd, k⟩
    · exact absurd k (by decide)
    · exact (digit_not _ ((h d hd).2 _ k)).1 rfl

theorem word_entry (A D B : Str) (hA : Letters A) (hD : Digits D) (hB : Letters B) : Entry (A ++ D ++ B) := by
  constructor
  · intro k
    exact hD.1 (List.append_eq_nil_iff.1 (List.append_eq_nil_iff.1 k).1).2
  · intro k
    rcases List.mem_append.1 k with k | k
    · rcases List.mem_append.1 k with k | k
      · exact letter_not _ (hA _ k) rfl
      · exact (digit_not _ (hD.2 _ k)).1 rfl
    · exact letter_not _ (hB _ k) rfl

theorem split_commas (ds : List Str) (h : ∀ d ∈ ds, Digits d) : split ',' (commas ds) = ds :=
  C52_split_join ',' ds fun d hd => ⟨(h d hd).1, fun k => (digit_not _ ((h d hd).2 _ k)).2 rfl⟩

theorem row_eq (nP nR nL : ℕ) (num w t T : Str) (ds rest : List Str) (h1 : Entry num) (hw : Entry w) (ht : Entry t) (hT : Entry T)
    (hr : ∀ s ∈ rest, Entry s) (hne : ds ≠ []) (hd : ∀ d ∈ ds, Digits d) :
    failureRow nP nR nL (rowOf (num :: w :: commas ds :: t :: T :: rest)) =
      (endWord nP nR w).bind fun x => (lineNumbers nL ds).bind fun l => .ok ⟨x, l, atof t, atof T⟩ := by
  unfold failureRow rowOf
  rw [C52_split_join ' ' (num :: w :: commas ds :: t :: T :: rest) ?_]
  · dsimp only
    rw [split_commas ds hd]
  · intro s hs
    simp only [List.mem_cons] at hs
    rcases hs with rfl | rfl | rfl | rfl | rfl | hs
    · exact h1
    · exact hw
    · exact commas_entry ds hne hd
    · exact ht
    · exact hT
    · exact hr s hs

/-! ## C121: what a row means -/

/-- C121: a row with the number of a point, or letters for it, the numbers of lines with commas between them, a time and a tension: the point and the lines
of these numbers, counted from one, and an error if there is no such point or line. -/
theorem C121_point (nP nR nL : ℕ) (num A D B t T : Str) (ds rest : List Str) (h1 : Entry num) (ht : Entry t) (hT : Entry T)
    (hr : ∀ s ∈ rest, Entry s) (hA : Letters A) (hD : Digits D) (hs : natOf D < 2 ^ 31) (hB : Letters B)
    (hw : A = [] ∨ upper A = "C".toList ∨ upper A = "CON".toList ∨ upper A = "P".toList ∨ upper A = "POINT".toList)
    (hne : ds ≠ []) (hd : ∀ d ∈ ds, Digits d ∧ natOf d < 2 ^ 31) :
    failureRow nP nR nL (rowOf (num :: (A ++ D ++ B) :: commas ds :: t :: T :: rest)) =
      if (1 ≤ natOf D ∧ natOf D ≤ nP) ∧ ∀ d ∈ ds, 1 ≤ natOf d ∧ natOf d ≤ nL then
        .ok ⟨.point (natOf D - 1), ds.map fun d => natOf d - 1, atof t, atof T⟩ else .refused := by
  rw [row_eq nP nR nL num _ t T ds rest h1 (word_entry A D B hA hD hB) ht hT hr hne fun d k => (hd d k).1,
    (C84_line_ends nP nR A D B hA hD hs hB).1 hw, lineNumbers_digits nL ds hd]
  by_cases c1 : 1 ≤ natOf D ∧ natOf D ≤ nP
  · rw [if_pos c1]
    by_cases c2 : ∀ d ∈ ds, 1 ≤ natOf d ∧ natOf d ≤ nL
    · rw [if_pos c2, if_pos ⟨c1, c2⟩]; rfl
    · rw [if_neg c2, if_neg fun k => c2 k.2]; rfl
  · simp only [c1, false_and, if_false]; rfl

/-- C121: the same with the end of a rod: `R`, its number and `A` or `B`. -/
theorem C121_rod (nP nR nL : ℕ) (num A D B t T : Str) (ds rest : List Str) (h1 : Entry num) (ht : Entry t) (hT : Entry T)
    (hr : ∀ s ∈ rest, Entry s) (hA : Letters A) (hD : Digits D) (hs : natOf D < 2 ^ 31) (hB : Letters B)
    (hw : upper A = "R".toList ∨ upper A = "ROD".toList) (hne : ds ≠ []) (hd : ∀ d ∈ ds, Digits d ∧ natOf d < 2 ^ 31) :
    failureRow nP nR nL (rowOf (num :: (A ++ D ++ B) :: commas ds :: t :: T :: rest)) =
      if (1 ≤ natOf D ∧ natOf D ≤ nR) ∧ (upper B = "A".toList ∨ upper B = "B".toList) ∧ ∀ d ∈ ds, 1 ≤ natOf d ∧ natOf d ≤ nL then
        .ok ⟨.rod (natOf D - 1) (upper B = "A".toList), ds.map fun d => natOf d - 1, atof t, atof T⟩ else .refused := by
  rw [row_eq nP nR nL num _ t T ds rest h1 (word_entry A D B hA hD hB) ht hT hr hne fun d k => (hd d k).1,
    (C84_line_ends nP nR A D B hA hD hs hB).2.1 hw, lineNumbers_digits nL ds hd]
  by_cases c1 : 1 ≤ natOf D ∧ natOf D ≤ nR
  · rw [if_pos c1]
    by_cases c2 : ∀ d ∈ ds, 1 ≤ natOf d ∧ natOf d ≤ nL
    · rw [if_pos c2]
      by_cases c3 : upper B = "A".toList
      · rw [if_pos c3, if_pos ⟨c1, .inl c3, c2⟩, decide_eq_true c3]; rfl
      · rw [if_neg c3]
        by_cases c4 : upper B = "B".toList
        · rw [if_pos c4, if_pos ⟨c1, .inr c4, c2⟩, decide_eq_false c3]; rfl
        · rw [if_neg c4, if_neg fun k => k.2.1.elim c3 c4]; rfl
    · simp only [c2, and_false, if_false]
      split_ifs <;> rfl
  · simp only [c1, false_and, if_false]; rfl

/-! ## C121: which rows are accepted -/

theorem bind_ok {α β : Type} {r : Res α} {f : α → Res β} {b : β} (h : r.bind f = .ok b) : ∃ a, r = .ok a ∧ f a = .ok b := by
  cases r with
  | ok a => exact ⟨a, rfl, h⟩
  | refused => exact absurd h (by simp [Res.bind])
  | undefined => exact absurd h (by simp [Res.bind])

/-- The place exists. -/
def Exists (nP nR : ℕ) : Words.End → Prop
  | .point i => i < nP
  | .rod i _ => i < nR

theorem reference_ok {n : ℕ} {s : Str} {i : ℕ} (h : reference n s = .ok i) : i < n := by
  unfold reference at h
  split_ifs at h
  split at h
  · exact absurd h (by simp)
  · split_ifs at h with h2
    simp only [Res.ok.injEq] at h
    omega

theorem endWord_ok {nP nR : ℕ} {w : Str} {x : Words.End} (h : endWord nP nR w = .ok x) : Exists nP nR x := by
  unfold endWord at h
  dsimp only at h
  split_ifs at h <;>
    (obtain ⟨i, h1, h2⟩ := bind_ok h
     have := reference_ok h1
     cases h2 <;> exact this)

theorem lineNumbers_ok {n : ℕ} {ss : List Str} {ls : List ℕ} (h : lineNumbers n ss = .ok ls) : ls.length = ss.length ∧ ∀ l ∈ ls, l < n := by
  induction ss generalizing ls with
  | nil =>
    simp only [lineNumbers, Res.ok.injEq] at h
    subst h
    simp
  | cons s ss ih =>
    obtain ⟨l, h1, h2⟩ := bind_ok h
    obtain ⟨ls', h3, h4⟩ := bind_ok h2
    simp only [Res.ok.injEq] at h4
    subst h4
    obtain ⟨k1, k2⟩ := ih h3
    refine ⟨by simp [k1], ?_⟩
    intro m hm
    rcases List.mem_cons.1 hm with rfl | hm
    · unfold lineNumber at h1
      split at h1
      · exact absurd h1 (by simp)
      · exact absurd h1 (by simp)
      · dsimp only at h1
        split_ifs at h1
        simp only [Res.ok.injEq] at h1
        omega
    · exact k2 m hm

/-- C121: whatever is written in the row, if it is accepted there are such a point or rod and such lines, as many as there are parts between the commas. -/
theorem C121_exists (nP nR nL : ℕ) (row : Str) (f : Failure) (h : failureRow nP nR nL row = .ok f) :
    Exists nP nR f.place ∧ (∀ l ∈ f.lines, l < nL) ∧ ∃ a w ls t T rest, split ' ' row = a :: w :: ls :: t :: T :: rest ∧
      f.lines.length = (split ',' ls).length := by
  unfold failureRow at h
  split at h
  · next a w ls t rest hs =>
    obtain ⟨x, h1, h2⟩ := bind_ok h
    obtain ⟨l, h3, h4⟩ := bind_ok h2
    cases rest with
    | nil => exact absurd h4 (by simp)
    | cons T rest =>
      simp only [Res.ok.injEq] at h4
      subst h4
      obtain ⟨k1, k2⟩ := lineNumbers_ok h3
      exact ⟨endWord_ok h1, k2, a, w, ls, t, T, rest, hs, k1⟩
  · exact absurd h (by simp)

/-- C121: the failures are those of the rows, in their order; the section is refused with its first row that is. -/
theorem C121_rows (nP nR nL : ℕ) (rows : List Str) :
    (∀ fs, failureRows nP nR nL rows = .ok fs ↔ rows.map (failureRow nP nR nL) = fs.map .ok) ∧
    ∀ pre r post, rows = pre ++ r :: post → (∃ fs, failureRows nP nR nL pre = .ok fs) → failureRow nP nR nL r = .refused →
      failureRows nP nR nL rows = .refused := by
  constructor
  · induction rows with
    | nil =>
      intro fs
      cases fs <;> simp [failureRows]
    | cons r rs ih =>
      intro fs
      rw [failureRows]
      constructor
      · intro h
        obtain ⟨f, h1, h2⟩ := bind_ok h
        obtain ⟨fs', h3, h4⟩ := bind_ok h2
        simp only [Res.ok.injEq] at h4
        subst h4
        rw [List.map_cons, h1, (ih fs').1 h3, List.map_cons]
      · intro h
        cases fs with
        | nil => simp at h
        | cons f fs =>
          simp only [List.map_cons, List.cons.injEq] at h
          rw [h.1, (ih fs).2 h.2]
          rfl
  · rintro pre r post rfl ⟨fs, hp⟩ hr
    induction pre generalizing fs with
    | nil => rw [List.nil_append, failureRows, hr]; rfl
    | cons q pre ih =>
      obtain ⟨f, h1, h2⟩ := bind_ok hp
      obtain ⟨fs', h3, h4⟩ := bind_ok h2
      rw [List.cons_append, failureRows, h1, ih fs' h3]
      rfl

/-- The second row of the manual, the third, and rows that name too much, or nothing. -/
example : failureRow 5 1 4 "2 3 1,4 0 1200e3".toList = .ok ⟨.point 2, [0, 3], .fin 0, .fin 1200000⟩ ∧
    failureRow 5 1 4 "3  R1a 1,2,3 12 0".toList = .ok ⟨.rod 0 true, [0, 1, 2], .fin 12, .fin 0⟩ ∧
    failureRow 5 1 4 "3 R2a 1 12 0".toList = .refused ∧ failureRow 5 1 4 "3 5 5 12 0".toList = .refused ∧
    failureRow 5 1 4 "3 5 1".toList = .refused ∧ failureRow 5 1 4 "3 5 -1 12 0".toList = .refused := by
  decide +kernel

/-! ## C121: what is not as documented -/

/-- C121 fails for the tension: the failures that are looked at after the steps are the same whatever the tension of the row. -/
theorem C121_tension_false (nP nR nL : ℕ) (num w t T T' : Str) (ds rest : List Str) (h1 : Entry num) (hw : Entry w) (ht : Entry t) (hT : Entry T)
    (hT' : Entry T') (hr : ∀ s ∈ rest, Entry s) (hne : ds ≠ []) (hd : ∀ d ∈ ds, Digits d) :
    (failureRow nP nR nL (rowOf (num :: w :: commas ds :: t :: T :: rest))).bind (fun f => .ok (armed f)) =
      (failureRow nP nR nL (rowOf (num :: w :: commas ds :: t :: T' :: rest))).bind fun f => .ok (armed f) := by
  rw [row_eq nP nR nL num w t T ds rest h1 hw ht hT hr hne hd, row_eq nP nR nL num w t T' ds rest h1 hw ht hT' hr hne hd]
  cases endWord nP nR w with
  | ok x =>
    simp only [Res.bind]
    cases lineNumbers nL ds <;> rfl
  | refused => rfl
  | undefined => rfl

/-- C121 fails for repeated rows, which are not ignored: if both are due the second is an error, and the step returns one. -/
theorem C121_repeated_false {V : Type} (zero : V) (t : ℚ) (s : Sys V) (hc : Consistent s) (f : Fail ℚ) (hx : s.valid f.target = true)
    (hst : f.status = false) (ht : t ≤ f.time) (hd : f.lines.Nodup) (hne : f.lines ≠ [])
    (ha : ∀ l ∈ f.lines, ∃ e, AttachedTo s (l, e) f.target) (hone : ∀ l ∈ f.lines, ¬ (AttachedTo s (l, .A) f.target ∧ AttachedTo s (l, .B) f.target)) :
    (checkFails zero t 0 [f] s).2.2.2 = true ∧ (checkFails zero t 0 [f, f] s).2.2.2 = false := by
  have h1 := Attach.C16_detach_succeeds zero f.target f.lines s hc hx hd ha
  obtain ⟨k1, k2, k3, k4, k5, k6, k7, k8⟩ := Attach.C16_detach zero f.target f.lines s hc hx
  have hv : ∀ s1 : Sys V, s1.np = s.np + 1 → s1.nr = s.nr → ∀ x, s.valid x = true → s1.valid x = true := by
    intro s1 e1 e2 x hx
    cases x with
    | point i => simp only [Sys.valid, decide_eq_true_eq, e1] at *; omega
    | rod i e => simp only [Sys.valid, decide_eq_true_eq, e2] at *; exact hx
  have h2 : (Attach.detach zero f.target f.lines (Attach.detach zero f.target f.lines s).1).2 = false := by
    obtain ⟨l, hl⟩ := List.exists_mem_of_ne_nil _ hne
    refine Attach.C16_detach_error zero f.target f.lines _ k1 ?_ l hl ?_
    · exact hv _ k2 k4 _ hx
    · intro e he
      have hnew : f.target ≠ .point s.np := by
        intro k
        rw [k] at hx
        simp [Sys.valid] at hx
      obtain ⟨e', ha', hb'⟩ := (k8 h1).2 l hl
      have hmem : ∀ {s : Sys V} {a x}, AttachedTo s a x → a ∈ s.att x := fun h => List.count_pos_iff.1 (by rw [h.1]; exact one_pos)
      by_cases hee : e = e'
      · subst hee
        exact he.2 (.point s.np) (Ne.symm hnew) (hmem hb')
      · obtain ⟨z, -, hz⟩ := hc.1 l (hc.2 _ _ _ (hmem ha')).1 e
        by_cases hzx : z = f.target
        · subst hzx
          apply hone l hl
          cases e <;> cases e' <;> first | exact absurd rfl hee | exact ⟨hz, ha'⟩ | exact ⟨ha', hz⟩
        · have := k5 (l, e) z (.inr hzx) hz
          exact he.2 z hzx (hmem this)
  have hcond : (f.status || decide (f.time < t)) = false := by simp [hst, ht]
  generalize hD : Attach.detach zero f.target f.lines s = D at *
  obtain ⟨s1, b1⟩ := D
  dsimp only at h1 h2
  subst h1
  generalize hE : Attach.detach zero f.target f.lines s1 = E at *
  obtain ⟨s2, b2⟩ := E
  dsimp only at h2
  subst h2
  constructor
  · simp [checkFails, hcond, hD]
  · simp [checkFails, hcond, hD, hE]

/-- C121 fails for lines that are not attached to the point of the row: such a row is accepted, and the step in which it is due returns an error. -/
theorem C121_unattached_false {V : Type} (zero : V) (t : ℚ) (s : Sys V) (hc : Consistent s) (f : Fail ℚ) (hx : s.valid f.target = true)
    (hst : f.status = false) (ht : t ≤ f.time) (l : ℕ) (hl : l ∈ f.lines) (hno : ∀ e, ¬ AttachedTo s (l, e) f.target) :
    (checkFails zero t 0 [f] s).2.2.2 = false := by
  have h1 := Attach.C16_detach_error zero f.target f.lines s hc hx l hl hno
  have hcond : (f.status || decide (f.time < t)) = false := by simp [hst, ht]
  generalize hD : Attach.detach zero f.target f.lines s = D at *
  obtain ⟨s1, b1⟩ := D
  dsimp only at h1
  subst h1
  simp [checkFails, hcond, hD]

/-- C121: the time zero stands for no time: such a row has no effect. -/
theorem C121_no_time {V : Type} (zero : V) (t : ℚ) (ht : 0 < t) (s : Sys V) (f : Failure) (h0 : f.time = .fin 0) :
    ∃ a, armed f = some a ∧ checkFails zero t 0 [a] s = (s, [a], [], true) := by
  refine ⟨⟨support f.place, f.lines, 0, false⟩, by unfold armed; rw [h0], ?_⟩
  simp [checkFails, ht]

/-- C121: a failure that is due (see C17 for when the code takes it to be) leaves the lines of the row on a new point, and every other line end where it
was.  `x` is the point or the end of the rod. -/
theorem C121_due {V : Type} (zero : V) (t q : ℚ) (s : Sys V) (hc : Consistent s) (f : Failure) (x : Support) (i : ℕ)
    (hp : f.place = .point i ∧ x = .point i ∨ f.place = .rod i true ∧ x = .rod i .A ∨ f.place = .rod i false ∧ x = .rod i .B)
    (hx : s.valid x = true) (hq : f.time = .fin q) (ht : t ≤ q) (hd : f.lines.Nodup) (ha : ∀ l ∈ f.lines, ∃ e, AttachedTo s (l, e) x) :
    ∃ a, armed f = some a ∧ let r := checkFails zero t 0 [a] s
      r.2.2.2 = true ∧ r.2.2.1 = [0] ∧ r.1.np = s.np + 1 ∧
      (∀ l ∈ f.lines, ∃ e, AttachedTo s (l, e) x ∧ AttachedTo r.1 (l, e) (.point s.np)) ∧
      ∀ b z, (b.1 ∉ f.lines ∨ z ≠ x) → AttachedTo s b z → AttachedTo r.1 b z := by
  have hsup : support f.place = x := by
    rcases hp with ⟨h1, rfl⟩ | ⟨h1, rfl⟩ | ⟨h1, rfl⟩ <;> rw [h1] <;> rfl
  refine ⟨⟨x, f.lines, q, false⟩, by unfold armed; rw [hq, hsup], ?_⟩
  have h1 := Attach.C16_detach_succeeds zero x f.lines s hc hx hd ha
  obtain ⟨k1, k2, k3, k4, k5, k6, k7, k8⟩ := Attach.C16_detach zero x f.lines s hc hx
  have k9 := (k8 h1).2
  have hcond : (false || decide (q < t)) = false := by simp [ht]
  generalize hD : Attach.detach zero x f.lines s = D at *
  obtain ⟨s1, b1⟩ := D
  dsimp only at h1
  subst h1
  have hr : checkFails zero t 0 [⟨x, f.lines, q, false⟩] s = (s1, [⟨x, f.lines, q, true⟩], [0], true) := by
    simp [checkFails, ht, hD]
  intro r
  have hr' : r = (s1, [⟨x, f.lines, q, true⟩], [0], true) := hr
  rw [hr']
  exact ⟨rfl, rfl, k2, k9, k5⟩

/-- Two lines from points to the end of a rod; a row for the first, twice, in time. -/
example : ∃ (s : Sys ℕ) (g : Failure) (f : Fail ℚ), [(Support.point 0, Support.rod 0 .A), (Support.point 1, Support.rod 0 .A)].foldlM
      (fun s p => s.newLine p.1 p.2) Attach.demo = some s ∧ failureRow 2 1 2 "1 R1A 1 10 0".toList = .ok g ∧ armed g = some f ∧
    (checkFails 0 1 0 [f] s).2.2.2 = true ∧ (checkFails 0 1 0 [f] s).1.att (.point 2) = [(0, .B)] ∧ (checkFails 0 1 0 [f, f] s).2.2.2 = false := by
  refine ⟨_, ⟨.rod 0 true, [0], .fin 10, .fin 0⟩, ⟨.rod 0 .A, [0], 10, false⟩, rfl, by decide +kernel, rfl, ?_, ?_, ?_⟩ <;> decide +kernel

end MD.Failures
