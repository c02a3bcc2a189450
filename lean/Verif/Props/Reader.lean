import Mathlib.Tactic.Ring
import Mathlib.Tactic.Linarith
import Mathlib.Tactic.FinCases
import Mathlib.Data.Fintype.Basic
import Verif.Model.Reader
import Verif.Props.Text

/-!
# Reading the input file (C48, C49, C50, C51, C70)
-/

set_option linter.unusedSimpArgs false
set_option linter.unusedVariables false
set_option linter.unusedTactic false

namespace MD.Reader

open MD.Text

/-! ## C48: tables of properties -/

theorem curveRows_ok (ls : List Str) (xs ys : List Val) (h : curveRows ls = .ok (xs, ys)) :
    ys = xs ∧ xs = ls.map (fun l => atof ((split ' ' l).headD [])) ∧
    ∀ l ∈ ls, 2 ≤ (split ' ' l).length := by
  induction ls generalizing xs ys with
  | nil =>
    simp only [curveRows, Except.ok.injEq, Prod.mk.injEq] at h
    obtain ⟨rfl, rfl⟩ := h
    simp
  | cons l ls ih =>
    unfold curveRows at h
    split at h
    · next e0 e1 es he =>
      split at h
      · next xs' ys' hr =>
        simp only [Except.ok.injEq, Prod.mk.injEq] at h
        obtain ⟨rfl, rfl⟩ := h
        obtain ⟨h1, h2, h3⟩ := ih xs' ys' hr
        refine ⟨by rw [h1], by rw [List.map_cons, ← h2, he]; rfl, ?_⟩
        intro m hm
        rcases List.mem_cons.1 hm with rfl | hm
        · rw [he]; simp
        · exact h3 m hm
      · exact absurd h (by simp)
    · exact absurd h (by simp)

theorem curveRows_of_two (ls : List Str) (h : ∀ l ∈ ls, 2 ≤ (split ' ' l).length) :
    ∃ xs, curveRows ls = .ok (xs, xs) := by
  induction ls with
  | nil => exact ⟨[], rfl⟩
  | cons l ls ih =>
    obtain ⟨xs, hx⟩ := ih fun m hm => h m (by simp [hm])
    have := h l (by simp)
    match he : split ' ' l with
    | [] => rw [he] at this; simp at this
    | [_] => rw [he] at this; simp at this
    | e0 :: e1 :: es => exact ⟨atof e0 :: xs, by simp [curveRows, he, hx]⟩

/-- The rows of a file: the lines after the three titles. -/
def dataRows (txt : Str) : List Str := ((goodLines txt).drop 3).map rtrim

theorem readCurve_file (fs : Str → Option Str) (base entry txt : Str)
    (hn : strtold entry = none) (hf : fs (base ++ entry) = some txt) :
    readCurve fs base entry =
      if (goodLines txt).length < 5 then .error .tooFew
      else match curveRows (dataRows txt) with
        | .error e => .error e
        | .ok (xs, ys) => if nCoef < xs.length then .error .tooMany else .ok (.table xs ys) := by
  unfold readCurve readCurveV
  rw [hn, hf]
  simp only
  split_ifs with h5
  · rfl
  · unfold dataRows
    cases hc : curveRows (((goodLines txt).drop 3).map rtrim) with
    | error e => rfl
    | ok p =>
      obtain ⟨xs, ys⟩ := p
      simp only
      rw [if_neg]
      have := (curveRows_ok _ _ _ hc).2.1
      rw [this]
      simp
      omega

/-- A file that is accepted: the abscissas are the first numbers of the rows after the
titles, all of them, in order; there are at most thirty, and each row has two numbers at
least. -/
theorem C48_abscissas_partial (fs : Str → Option Str) (base entry txt : Str)
    (hn : strtold entry = none) (hf : fs (base ++ entry) = some txt) (xs ys : List Val)
    (h : readCurve fs base entry = .ok (.table xs ys)) :
    xs = (dataRows txt).map (fun l => atof ((split ' ' l).headD [])) ∧ xs.length ≤ 30 ∧
    ∀ l ∈ dataRows txt, 2 ≤ (split ' ' l).length := by
  rw [readCurve_file fs base entry txt hn hf] at h
  split_ifs at h with h5
  cases hc : curveRows (dataRows txt) with
  | error e => rw [hc] at h; simp at h
  | ok p =>
    obtain ⟨xs', ys'⟩ := p
    rw [hc] at h
    simp only at h
    split_ifs at h with h30
    simp only [Except.ok.injEq, Curve.table.injEq] at h
    obtain ⟨rfl, rfl⟩ := h
    obtain ⟨_, h2, h3⟩ := curveRows_ok _ _ _ hc
    exact ⟨h2, by simpa [nCoef] using h30, h3⟩

/-- The converse: a file with two to thirty rows of two numbers each, and nothing after
them, is accepted. -/
theorem C48_accepted_partial (fs : Str → Option Str) (base entry txt : Str)
    (hn : strtold entry = none) (hf : fs (base ++ entry) = some txt)
    (h2 : 2 ≤ (dataRows txt).length) (h30 : (dataRows txt).length ≤ 30)
    (hr : ∀ l ∈ dataRows txt, 2 ≤ (split ' ' l).length) :
    ∃ xs ys, readCurve fs base entry = .ok (.table xs ys) := by
  rw [readCurve_file fs base entry txt hn hf]
  obtain ⟨xs, hx⟩ := curveRows_of_two _ hr
  have hl := (curveRows_ok _ _ _ hx).2.1
  have h5 : ¬ (goodLines txt).length < 5 := by
    simp [dataRows] at h2; omega
  rw [if_neg h5, hx]
  simp only
  refine ⟨xs, xs, ?_⟩
  rw [if_neg]
  rw [hl]; simpa [nCoef] using h30

/-- Rows with fewer than two numbers, or more than thirty rows, are errors. -/
theorem C48_malformed (fs : Str → Option Str) (base entry txt : Str)
    (hn : strtold entry = none) (hf : fs (base ++ entry) = some txt)
    (h : (∃ l ∈ dataRows txt, (split ' ' l).length < 2) ∨ 30 < (dataRows txt).length) :
    ∃ e, readCurve fs base entry = .error e := by
  rcases hr : readCurve fs base entry with e | c
  · exact ⟨e, rfl⟩
  · exfalso
    cases c with
    | const v =>
      rw [readCurve_file fs base entry txt hn hf] at hr
      split_ifs at hr
      cases hc : curveRows (dataRows txt) with
      | error e => rw [hc] at hr; simp at hr
      | ok p =>
        rw [hc] at hr
        simp only at hr
        split_ifs at hr
        simp at hr
    | table xs ys =>
      obtain ⟨h1, h2, h3⟩ := C48_abscissas_partial fs base entry txt hn hf xs ys hr
      rcases h with ⟨l, hl, hlt⟩ | h
      · have := h3 l hl; omega
      · rw [h1] at h2; simp at h2; omega

/-- A missing file is an error. -/
theorem C48_missing (fs : Str → Option Str) (base entry : Str) (hn : strtold entry = none)
    (hf : fs (base ++ entry) = none) : readCurve fs base entry = .error .noFile := by
  unfold readCurve readCurveV; rw [hn, hf]

/-- The ordinates are not those of the file: whatever the file, they are the abscissas. -/
theorem C48_ordinates_false (fs : Str → Option Str) (base entry : Str) (xs ys : List Val)
    (h : readCurve fs base entry = .ok (.table xs ys)) : ys = xs := by
  unfold readCurve at h
  cases hv : readCurveV fs base entry with
  | error e => rw [hv] at h; simp at h
  | ok p =>
    obtain ⟨xs', ys'⟩ := p
    rw [hv] at h
    simp only at h
    split_ifs at h with h1 h2
    · simp at h
    simp only [Except.ok.injEq, Curve.table.injEq] at h
    obtain ⟨hx, hy⟩ := h
    rw [← hx, ← hy]
    unfold readCurveV at hv
    split at hv
    · simp only [Except.ok.injEq, Prod.mk.injEq] at hv
      rw [← hv.1] at h1
      exact absurd rfl h1
    · split at hv
      · simp at hv
      · split_ifs at hv
        exact (curveRows_ok _ _ _ hv).1

/-- A polyester curve, as in the documentation, with a last line that is not ended. -/
def sampleText : Str := "--P--\nStrain T\n(-) (N)\n0.0 0.0\n0.1 500".toList

example : readCurve (fun _ => some sampleText) [] "poly.txt".toList =
    .ok (.table [.fin 0, .fin (1/10)] [.fin 0, .fin (1/10)]) := by decide +kernel

theorem goodLines_ne (s : Str) : goodLines s ≠ [] := by
  cases s with
  | nil => simp [goodLines]
  | cons c cs =>
    unfold goodLines
    split_ifs
    · simp
    · split <;> simp

theorem goodLines_last (s : Str) : ∃ ls, goodLines (s ++ ['\n']) = ls ++ [[]] := by
  induction s with
  | nil => exact ⟨[[]], rfl⟩
  | cons c cs ih =>
    obtain ⟨ls, h⟩ := ih
    rw [List.cons_append]
    unfold goodLines
    rw [h]
    split_ifs with hc
    · exact ⟨[] :: ls, rfl⟩
    · cases ls with
      | nil =>
        exfalso
        have : 2 ≤ (goodLines (cs ++ ['\n'])).length := by
          clear h hc
          induction cs with
          | nil => simp [goodLines]
          | cons d ds ih =>
            rw [List.cons_append]
            unfold goodLines
            split_ifs
            · rw [List.length_cons]; omega
            · split
              · next l ls hl => rw [hl] at ih; simpa using ih
              · next hl => rw [hl] at ih; simp at ih
        rw [h] at this
        simp at this
      | cons l ls => exact ⟨(c :: l) :: ls, rfl⟩

/-- Text files whose last line is ended, as text editors write them, are never accepted:
the empty rest after the last end of line counts as a malformed row. -/
theorem C48_newline_false (fs : Str → Option Str) (base entry txt : Str)
    (hn : strtold entry = none) (hf : fs (base ++ entry) = some (txt ++ ['\n'])) :
    ∃ e, readCurve fs base entry = .error e := by
  obtain ⟨ls, hl⟩ := goodLines_last txt
  by_cases h5 : (goodLines (txt ++ ['\n'])).length < 5
  · exact ⟨.tooFew, by rw [readCurve_file fs base entry _ hn hf, if_pos h5]⟩
  · refine C48_malformed fs base entry _ hn hf (Or.inl ⟨[], ?_, by simp [split, splitGo]⟩)
    unfold dataRows
    rw [hl] at h5 ⊢
    rw [List.drop_append_of_le_length (by simp at h5; omega), List.map_append, List.mem_append]
    right
    simp [rtrim]

/-- A plain number is a constant. -/
theorem C48_constant (fs : Str → Option Str) (base entry : Str) (v : Val)
    (h : strtold entry = some v) : readCurve fs base entry = .ok (.const v) := by
  unfold readCurve readCurveV; rw [h]; rfl

/-- But names of files beginning with a digit, or with `inf` or `nan`, are numbers as well:
the file is not read, whatever it has. -/
theorem C48_file_name_false :
    (∀ fs base, readCurve fs base "76mm_chain.txt".toList = .ok (.const (.fin 76))) ∧
    (∀ fs base, readCurve fs base "infield.txt".toList = .ok (.const (.inf false))) ∧
    (∀ fs base, readCurve fs base "nankai.txt".toList = .ok (.const .nan)) :=
  ⟨fun fs b => C48_constant fs b _ _ (by decide +kernel),
   fun fs b => C48_constant fs b _ _ (by decide +kernel),
   fun fs b => C48_constant fs b _ _ (by decide +kernel)⟩

/-- Numbers are read as they are written: digits, a point, digits. -/
theorem C48_number (ip fp : Str) (hi : ∀ c ∈ ip, isDigit c = true)
    (hf : ∀ c ∈ fp, isDigit c = true) (hne : ip ≠ []) :
    strtold (ip ++ '.' :: fp) = some (.fin (natOf (ip ++ fp) / 10 ^ fp.length)) := by
  obtain ⟨d, ds, rfl⟩ := List.exists_cons_of_ne_nil hne
  have hd := hi d (by simp)
  have hnum : 48 ≤ d.toNat ∧ d.toNat ≤ 57 := by
    simpa [isDigit] using hd
  have hsp : isSpace d = false := by
    rw [Bool.eq_false_iff]
    intro h
    simp only [isSpace, Bool.or_eq_true, decide_eq_true_eq] at h
    rcases h with ((((rfl | rfl) | rfl) | rfl) | rfl) | rfl <;> revert hnum <;> decide
  have hlow : toLower d = d := by
    unfold toLower
    rw [if_neg]
    simp only [isUpper, Bool.and_eq_true, decide_eq_true_eq]
    omega
  have hni : d ≠ 'i' := by rintro rfl; revert hnum; decide
  have hnn : d ≠ 'n' := by rintro rfl; revert hnum; decide
  have hsign : sign (d :: ds ++ '.' :: fp) = (false, d :: ds ++ '.' :: fp) := by
    rw [List.cons_append]
    unfold sign
    split
    · next h => simp only [List.cons.injEq] at h; obtain ⟨rfl, _⟩ := h; exact absurd hnum (by decide)
    · next h => simp only [List.cons.injEq] at h; obtain ⟨rfl, _⟩ := h; exact absurd hnum (by decide)
    · rfl
  have hdot : isDigit '.' = false := by decide
  have htw : (d :: ds ++ '.' :: fp).takeWhile isDigit = d :: ds := by
    rw [List.takeWhile_append_of_pos hi]; simp [hdot]
  have hdw : (d :: ds ++ '.' :: fp).dropWhile isDigit = '.' :: fp := by
    rw [List.dropWhile_append_of_pos hi]; simp [hdot]
  have hfw : fp.takeWhile isDigit = fp := List.takeWhile_eq_self_iff.2 hf
  have hfd : fp.dropWhile isDigit = [] := List.dropWhile_eq_nil_iff.2 hf
  have h0 : (d :: ds ++ '.' :: fp).dropWhile isSpace = d :: ds ++ '.' :: fp := by
    rw [List.cons_append, List.dropWhile_cons_of_neg (by simp [hsp])]
  have hinf : startswith (lower (d :: ds ++ '.' :: fp)) "inf".toList = false := by
    rw [show "inf".toList = ['i', 'n', 'f'] by decide]
    simp [startswith, lower, hlow, List.isPrefixOf, hni.symm]
  have hnan : startswith (lower (d :: ds ++ '.' :: fp)) "nan".toList = false := by
    rw [show "nan".toList = ['n', 'a', 'n'] by decide]
    simp [startswith, lower, hlow, List.isPrefixOf, hnn.symm]
  unfold strtold
  rw [h0]
  simp only [hsign, hinf, hnan, htw, hdw, fraction, hfw, hfd]
  simp [exponent, scale10]

example : strtold "12.50".toList = some (.fin (25/2)) := by decide +kernel

/-! ## C49: entries of bodies -/

section Body

variable {K : Type} [Field K]

/-- Specification, from the documentation (docs/inputs.rst:361-366): one value for all, one
for the translations and one for the rotations, one for each axis, or one for each degree
of freedom. -/
def CdASpec (e : List K) (cda : Fin 6 → K) : Prop :=
  (∃ a, e = [a] ∧ ∀ i, cda i = a) ∨
  (∃ a b, e = [a, b] ∧ ∀ i, cda i = if i.1 < 3 then a else b) ∨
  (e.length = 3 ∧ ∀ i : Fin 6, e[i.1 % 3]? = some (cda i)) ∨
  (e.length = 6 ∧ ∀ i : Fin 6, e[i.1]? = some (cda i))

/-- One or two values. -/
theorem C49_one_two_partial (e : List K) (h : e.length = 1 ∨ e.length = 2) :
    ∃ cda, bodyCdA e = some cda ∧ CdASpec e cda := by
  match e, h with
  | [a], _ =>
    refine ⟨_, rfl, Or.inl ⟨a, rfl, ?_⟩⟩
    intro i; fin_cases i <;> rfl
  | [a, b], _ =>
    refine ⟨_, rfl, Or.inr (Or.inl ⟨a, b, rfl, ?_⟩)⟩
    intro i; fin_cases i <;> rfl

/-- Three or six values: all but those of the first axis (surge, and roll for three
values) are as given, and those are zero. -/
theorem C49_three_six_partial (e : List K) (h : e.length = 3 ∨ e.length = 6) :
    ∃ cda, bodyCdA e = some cda ∧
      ∀ i : Fin 6, if i.1 % e.length = 0 then cda i = 0 else e[i.1 % e.length]? = some (cda i) := by
  match e, h with
  | [a, b, c], _ =>
    refine ⟨_, rfl, ?_⟩
    intro i; fin_cases i <;> simp
  | [a, b, c, d, e, f], _ =>
    refine ⟨_, rfl, ?_⟩
    intro i; fin_cases i <;> simp

/-- The drag area in the first direction is lost: for three and six values the result is
wrong unless the first one is zero. -/
theorem C49_surge_false (e : List K) (h : e.length = 3 ∨ e.length = 6) (h0 : e[0]? ≠ some 0)
    (cda : Fin 6 → K) (hc : bodyCdA e = some cda) : ¬ CdASpec e cda := by
  match e, h with
  | [a, b, c], _ =>
    simp only [bodyCdA, Option.some.injEq] at hc
    subst hc
    rintro (⟨x, hx, _⟩ | ⟨x, y, hx, _⟩ | ⟨_, hx⟩ | ⟨hx, _⟩)
    · simp at hx
    · simp at hx
    · exact h0 (by simpa using hx 0)
    · simp at hx
  | [a, b, c, d, e, f], _ =>
    simp only [bodyCdA, Option.some.injEq] at hc
    subst hc
    rintro (⟨x, hx, _⟩ | ⟨x, y, hx, _⟩ | ⟨hx, _⟩ | ⟨_, hx⟩)
    · simp at hx
    · simp at hx
    · simp at hx
    · exact h0 (by simpa using hx 0)

/-- Other numbers of values are rejected. -/
theorem C49_rejected (e : List K) :
    bodyCdA e = none ↔ e.length ≠ 1 ∧ e.length ≠ 2 ∧ e.length ≠ 3 ∧ e.length ≠ 6 := by
  match e with
  | [] => simp [bodyCdA]
  | [_] => simp [bodyCdA]
  | [_, _] => simp [bodyCdA]
  | [_, _, _] => simp [bodyCdA]
  | [_, _, _, _] => simp [bodyCdA]
  | [_, _, _, _, _] => simp [bodyCdA]
  | [_, _, _, _, _, _] => simp [bodyCdA]
  | _ :: _ :: _ :: _ :: _ :: _ :: _ :: _ => simp [bodyCdA]

/-- The other entries are those given: centre of gravity (one value: its height), inertia
and added mass (one value: for the three axes). -/
theorem C49_others (e : List K) :
    (∀ r, bodyCG e = some r →
      (∃ a, e = [a] ∧ r 0 = 0 ∧ r 1 = 0 ∧ r 2 = a) ∨
      (e.length = 3 ∧ ∀ i : Fin 3, e[i.1]? = some (r i))) ∧
    (∀ r, bodyInertia e = some r →
      (∃ a, e = [a] ∧ ∀ i, r i = a) ∨ (e.length = 3 ∧ ∀ i : Fin 3, e[i.1]? = some (r i))) ∧
    (∀ r, bodyCa e = some r →
      ((∃ a, e = [a] ∧ ∀ i : Fin 6, r i = if i.1 < 3 then a else 0) ∨
      (e.length = 3 ∧ ∀ i : Fin 6, if i.1 < 3 then e[i.1]? = some (r i) else r i = 0))) ∧
    (bodyCG e = none ↔ e.length ≠ 1 ∧ e.length ≠ 3) ∧
    (bodyInertia e = none ↔ e.length ≠ 1 ∧ e.length ≠ 3) ∧
    (bodyCa e = none ↔ e.length ≠ 1 ∧ e.length ≠ 3) := by
  match e with
  | [] => simp [bodyCG, bodyInertia, bodyCa]
  | [a] =>
    refine ⟨?_, ?_, ?_, by simp [bodyCG], by simp [bodyInertia], by simp [bodyCa]⟩ <;>
      intro r hr <;> left <;> refine ⟨a, rfl, ?_⟩
    · simp only [bodyCG, Option.some.injEq] at hr; subst hr; simp
    · simp only [bodyInertia, Option.some.injEq] at hr; subst hr
      intro i; fin_cases i <;> rfl
    · simp only [bodyCa, Option.some.injEq] at hr; subst hr
      intro i; fin_cases i <;> rfl
  | [_, _] => simp [bodyCG, bodyInertia, bodyCa]
  | [a, b, c] =>
    refine ⟨?_, ?_, ?_, by simp [bodyCG], by simp [bodyInertia], by simp [bodyCa]⟩ <;>
      intro r hr <;> right <;> refine ⟨rfl, ?_⟩
    · simp only [bodyCG, Option.some.injEq] at hr; subst hr
      intro i; fin_cases i <;> rfl
    · simp only [bodyInertia, Option.some.injEq] at hr; subst hr
      intro i; fin_cases i <;> rfl
    · simp only [bodyCa, Option.some.injEq] at hr; subst hr
      intro i; fin_cases i <;> simp
  | _ :: _ :: _ :: _ :: _ => simp [bodyCG, bodyInertia, bodyCa]

example : bodyCdA [(1 : ℚ), 2, 3] = some ![0, 2, 3, 0, 2, 3] := rfl

end Body

/-! ## C50: state indices -/

/-- Specification: blocks one after another from `a` to `b`. -/
def Contiguous : ℤ → List (Obj × ℤ) → ℤ → Prop
  | a, [], b => a = b
  | a, (o, i) :: l, b => i = a ∧ 0 ≤ o.states ∧ Contiguous (a + o.states) l b

theorem Contiguous.snoc {a b : ℤ} {l : List (Obj × ℤ)} (h : Contiguous a l b) (o : Obj)
    (ho : 0 ≤ o.states) : Contiguous a (l ++ [(o, b)]) (b + o.states) := by
  induction l generalizing a with
  | nil => simp only [Contiguous] at h; subst h; exact ⟨rfl, ho, rfl⟩
  | cons x l ih => obtain ⟨x, i⟩ := x; exact ⟨h.1, h.2.1, ih h.2.2⟩

theorem foldl_contiguous (os : List Obj) (s : States) (h : Contiguous 0 s.starts s.nX)
    (hn : ∀ n, Obj.line n ∈ os → 1 ≤ n) :
    Contiguous 0 (os.foldl States.add s).starts (os.foldl States.add s).nX := by
  induction os generalizing s with
  | nil => exact h
  | cons o os ih =>
    refine ih (s.add o) ?_ fun n hm => hn n (by simp [hm])
    unfold States.add
    split_ifs with ho
    · exact h
    · refine h.snoc o ?_
      cases o with
      | line n => have := hn n (by simp); simp only [Obj.states]; omega
      | _ => simp [Obj.states]

theorem foldl_starts (os : List Obj) (s : States) :
    (os.foldl States.add s).starts.map Prod.fst = s.starts.map Prod.fst ++ os.filter (· ≠ .other) := by
  induction os generalizing s with
  | nil => simp
  | cons o os ih =>
    rw [List.foldl_cons, ih]
    unfold States.add
    split_ifs with ho
    · rw [List.filter_cons_of_neg (by simp [ho])]
    · rw [List.filter_cons_of_pos (by simp [ho])]; simp

/-- After reading any objects (lines of one segment at least) the blocks of states of the
free objects follow one another, from zero to the number of states; every free object has
its block, in order. -/
theorem C50_contiguous_partial (os : List Obj) (h : ∀ n, Obj.line n ∈ os → 1 ≤ n) :
    Contiguous 0 (readAll os).starts (readAll os).nX ∧
    (readAll os).starts.map Prod.fst = os.filter (· ≠ .other) :=
  ⟨foldl_contiguous os _ rfl h, by
    have := foldl_starts os ⟨0, []⟩
    simpa [readAll] using this⟩

theorem contiguous_le {a b : ℤ} {l : List (Obj × ℤ)} (h : Contiguous a l b) :
    a ≤ b ∧ ∀ x ∈ l, a ≤ x.2 ∧ x.2 + x.1.states ≤ b := by
  induction l generalizing a with
  | nil => simp only [Contiguous] at h; subst h; simp
  | cons x l ih =>
    obtain ⟨o, i⟩ := x
    obtain ⟨rfl, h2, h3⟩ := h
    obtain ⟨h4, h5⟩ := ih h3
    refine ⟨by omega, ?_⟩
    intro y hy
    rcases List.mem_cons.1 hy with rfl | hy
    · simp only; omega
    · have := h5 y hy; omega

/-- Blocks of contiguous states are disjoint. -/
theorem C50_disjoint {a b : ℤ} {l : List (Obj × ℤ)} (h : Contiguous a l b) :
    l.Pairwise fun x y => x.2 + x.1.states ≤ y.2 := by
  induction l generalizing a with
  | nil => exact .nil
  | cons x l ih =>
    obtain ⟨o, i⟩ := x
    obtain ⟨rfl, h2, h3⟩ := h
    refine List.pairwise_cons.2 ⟨fun y hy => ?_, ih h3⟩
    exact ((contiguous_le h3).2 y hy).1

/-- Lines with no segments, which are accepted, take states from the objects before. -/
theorem C50_zero_segments_false :
    ¬ ∀ os : List Obj, Contiguous 0 (readAll os).starts (readAll os).nX := by
  intro h
  have := h [.freePoint, .line 0, .line 2]
  simp [readAll, States.add, Contiguous, Obj.states] at this

/-- The block of a point created by a failure is not within the states: it begins at their
end, leaving a hole of six. -/
theorem C50_failure_false (s : States) (h : Contiguous 0 s.starts s.nX) :
    ¬ Contiguous 0 s.detach.starts s.detach.nX ∧
    ∃ x ∈ s.detach.starts, s.detach.nX < x.2 + x.1.states := by
  have hx : ((Obj.freePoint, s.nX + 6) : Obj × ℤ) ∈ s.detach.starts := by simp [States.detach]
  have hlt : s.detach.nX < (s.nX + 6) + Obj.freePoint.states := by
    simp [States.detach, Obj.states]
  refine ⟨fun hc => ?_, _, hx, hlt⟩
  have := ((contiguous_le hc).2 _ hx).2
  simp only at this
  omega

example : readAll [.freeBody, .other, .freePoint, .pinnedRod, .line 10] =
    ⟨78, [(.freeBody, 0), (.freePoint, 12), (.pinnedRod, 18), (.line 10, 24)]⟩ := by
  simp [readAll, States.add, Obj.states]

/-! ## C51: traversal of the sections -/

section Sections

variable {σ : Type}

theorem scan_oob (h : σ → Str → Next σ) (ls : List Str) (s : σ)
    (he : scan h ls s = .oob) : ∀ l ∈ ls, contains l dashes = false := by
  induction ls generalizing s with
  | nil => simp
  | cons l ls ih =>
    unfold scan at he
    split_ifs at he with hd
    · intro m hm
      rcases List.mem_cons.1 hm with rfl | hm
      · simpa using hd
      · cases hh : h s l with
        | cont s' => rw [hh] at he; exact ih s' he m hm
        | err e => rw [hh] at he; simp at he
        | brk s' => rw [hh] at he; simp at he

/-- A section read in a file where, after its beginning, there is a line with dashes is
read within the file, whatever its lines and however they are read. -/
theorem C51_section (txt : List Str) (sec : Section σ) (s : σ)
    (h : ∀ i, findStart txt sec.names = some i → ∃ l ∈ txt.drop i, contains l dashes = true) :
    readSection txt sec s ≠ .oob := by
  intro he
  unfold readSection at he
  split at he
  · simp at he
  · next i hi =>
    obtain ⟨l, hl, hd⟩ := h i hi
    have := scan_oob _ _ _ he l hl
    simp [hd] at this

/-- All the sections: a file where every section is ended by a line with dashes is read
within the file. -/
theorem C51_terminated_partial (txt : List Str) (secs : List (Section σ)) (s : σ)
    (h : ∀ sec ∈ secs, ∀ i, findStart txt sec.names = some i →
      ∃ l ∈ txt.drop i, contains l dashes = true) :
    readSections txt secs s ≠ .oob := by
  induction secs generalizing s with
  | nil => simp [readSections]
  | cons sec secs ih =>
    intro he
    unfold readSections at he
    have h1 := C51_section txt sec s (h sec (by simp))
    cases hr : readSection txt sec s with
    | oob => exact h1 hr
    | err e => rw [hr] at he; simp at he
    | ok s' =>
      rw [hr] at he
      exact ih s' (fun sec hs => h sec (by simp [hs])) he

theorem findStart_le (txt : List Str) (names : List Str) (i : ℕ) (h : findStart txt names = some i) :
    skip names ≤ i ∧ ∃ l, txt[i - skip names]? = some l ∧ contains l dashes = true ∧
      has (upper l) names = true := by
  unfold findStart at h
  split at h
  · next j hj =>
    simp only [Option.some.injEq] at h
    subst h
    rw [List.findIdx?_eq_some_iff_getElem] at hj
    obtain ⟨hlt, hp, _⟩ := hj
    refine ⟨by omega, txt[j], ?_, ?_⟩
    · rw [Nat.add_sub_cancel]; exact List.getElem?_eq_getElem hlt
    · simpa using hp
  · simp at h

/-- In particular files whose last line has dashes, and none of the names of the sections
in it nor in the two lines before, as the documentation asks for. -/
theorem C51_last_line_partial (body : List Str) (a b last : Str)
    (secs : List (Section σ)) (s : σ)
    (hd : contains last dashes = true)
    (hn : ∀ sec ∈ secs, ∀ l ∈ [a, b, last], has (upper l) sec.names = false) :
    readSections (body ++ [a, b, last]) secs s ≠ .oob := by
  apply C51_terminated_partial
  intro sec hs i hi
  obtain ⟨hle, l, hl, _, hh⟩ := findStart_le _ _ i hi
  have hsk : skip sec.names ≤ 3 := by unfold skip; split_ifs <;> omega
  have hlt : i - skip sec.names < body.length := by
    by_contra hge
    rw [List.getElem?_append_right (by omega)] at hl
    have hm := List.mem_of_getElem? hl
    have := hn sec hs l hm
    rw [hh] at this
    simp at this
  refine ⟨last, ?_, hd⟩
  have hi2 : i ≤ body.length + 2 := by omega
  rw [List.mem_iff_getElem?]
  refine ⟨body.length + 2 - i, ?_⟩
  rw [List.getElem?_drop, List.getElem?_append_right (by omega)]
  have : i + (body.length + 2 - i) - body.length = 2 := by omega
  rw [this]; rfl

/-- A section whose lines are all read goes beyond the end of the file exactly if no line
with dashes ends it. -/
theorem C51_section_iff (txt : List Str) (sec : Section σ) (s : σ) (i : ℕ)
    (hi : findStart txt sec.names = some i) (hc : ∀ s l, ∃ s', sec.h s l = .cont s') :
    readSection txt sec s = .oob ↔ ∀ l ∈ txt.drop i, contains l dashes = false := by
  unfold readSection
  rw [hi]
  simp only
  constructor
  · exact scan_oob _ _ _
  · intro h
    generalize txt.drop i = ls at h
    induction ls generalizing s with
    | nil => rfl
    | cons l ls ih =>
      unfold scan
      rw [if_neg (by simp [h l (by simp)])]
      obtain ⟨s', hs⟩ := hc s l
      rw [hs]
      exact ih s' fun l hl => h l (by simp [hl])

/-- Files that end within the options, without a closing line of dashes, are read beyond
their end: for every file with options not closed and no `writeLog` among them, whatever
the other sections, before any of them is read. -/
theorem C51_options_false (txt : List Str) (i : ℕ)
    (hi : findStart txt ["OPTIONS".toList] = some i)
    (hd : ∀ l ∈ txt.drop i, contains l dashes = false)
    (hw : ∀ l ∈ txt.drop i, (split ' ' l)[1]? ≠ some "writeLog".toList)
    (setupLog : σ → Str → Except ℤ σ) (rest : List (Section σ)) (s : σ) :
    readSections txt (⟨["OPTIONS".toList], optionsFirst setupLog⟩ :: rest) s = .oob := by
  have key : ∀ (ls : List Str), (∀ l ∈ ls, contains l dashes = false) →
      (∀ l ∈ ls, (split ' ' l)[1]? ≠ some "writeLog".toList) →
      scan (optionsFirst setupLog) ls s = .oob := by
    intro ls h1 h2
    induction ls with
    | nil => rfl
    | cons l ls ih =>
      unfold scan
      rw [if_neg (by simp [h1 l (by simp)])]
      have : optionsFirst setupLog s l = .cont s := by
        unfold optionsFirst
        split
        · next v n es he =>
          rw [if_neg]
          intro hn
          exact h2 l (by simp) (by rw [he]; simp [hn])
        · rfl
      rw [this]
      exact ih (fun l hl => h1 l (by simp [hl])) (fun l hl => h2 l (by simp [hl]))
  have : readSection txt ⟨["OPTIONS".toList], optionsFirst setupLog⟩ s = .oob := by
    unfold readSection
    simp only [hi]
    exact key _ hd hw
  rw [readSections, this]

/-- A file of three lines: options that are not closed. -/
def openOptions : List Str := ["--- OPTIONS ---".toList, "0.001 dtM".toList, []]

example (setupLog : σ → Str → Except ℤ σ) (rest : List (Section σ)) (s : σ) :
    readSections openOptions (⟨["OPTIONS".toList], optionsFirst setupLog⟩ :: rest) s = .oob :=
  C51_options_false openOptions 1 (by decide +kernel) (by decide +kernel) (by decide +kernel) _ _ _

/-- Files that end within the titles of a section are read beyond their end, too. -/
theorem C51_header_false (txt : List Str) (sec : Section σ) (s : σ) (i : ℕ)
    (hi : findStart txt sec.names = some i) (h : txt.length ≤ i) :
    readSection txt sec s = .oob := by
  unfold readSection
  rw [hi]
  simp only
  rw [List.drop_eq_nil_of_le h]
  rfl

example : findStart ["--- BODIES ---".toList] ["BODIES".toList] = some 3 := by decide +kernel

end Sections

/-! ## C70: malformed entries -/

/-- The number of fields the documentation gives for the entries. -/
def required : Kind → ℕ
  | .options => 2
  | .lineType => 10
  | .rodType => 7
  | .body => 14
  | .point => 9
  | .rod => 11
  | .line => 7
  | .failure => 5

/-- Entries with all their fields are read, and those of types, bodies, points and lines
with fewer are rejected (options are ignored). -/
theorem C70_partial (k : Kind) (n : ℕ) :
    (required k ≤ n → short k n = .accepted) ∧
    (n < required k → k ≠ .rod → k ≠ .failure → short k n = .rejected ∨
      k = .options ∧ short k n = .ignored) := by
  constructor
  · intro h
    unfold short
    rw [if_neg (by cases k <;> simp only [required, Kind.checked] at * <;> omega), if_pos]
    rw [List.all_eq_true]
    intro x hx
    rw [decide_eq_true_eq]
    cases k <;> simp only [required, Kind.fields] at h hx
    case point =>
      split_ifs at hx <;> simp only [List.mem_cons, List.not_mem_nil, or_false] at hx <;> omega
    all_goals simp only [List.mem_cons, List.not_mem_nil, or_false] at hx; omega
  · intro h h1 h2
    unfold short
    rw [if_pos (by cases k <;> simp_all [required, Kind.checked])]
    cases k <;> simp_all [Kind.onShort]

/-- **C70.** Every field of an entry with the documented number of fields is read, and read once (a failure
entry is not asked for its first field, the number). -/
theorem C70_fields (k : Kind) : (k.fields (required k)).Perm
    (if k = .failure then (List.range (required k)).drop 1 else List.range (required k)) := by
  cases k <;> decide

/-- A rod entry with too few fields (an empty line, for instance) is not rejected but
undefined behaviour; so is a failure entry without its last field. -/
theorem C70_false :
    (∀ n, n < required .rod → short .rod n = .undefined) ∧
    short .failure 4 = .undefined := by
  refine ⟨fun n h => ?_, by decide⟩
  unfold short
  rw [if_pos (by simpa [required, Kind.checked] using h)]
  rfl

/-- Types are looked up by their name; if there are several, the last one counts. -/
theorem C70_types (types : List Str) (t : Str) :
    (∀ i, findType types t = some i →
      types[i]? = some t ∧ ∀ j, i < j → types[j]? ≠ some t) ∧
    (findType types t = none ↔ t ∉ types) := by
  have key : ∀ n, (∀ i, (List.range n).foldl (fun r j => if types[j]? = some t then some j else r)
      none = some i → types[i]? = some t ∧ i < n ∧ ∀ j, i < j → j < n → types[j]? ≠ some t) ∧
      ((List.range n).foldl (fun r j => if types[j]? = some t then some j else r) none = none ↔
        ∀ j < n, types[j]? ≠ some t) := by
    intro n
    induction n with
    | zero => simp
    | succ n ih =>
      obtain ⟨h1, h2⟩ := ih
      rw [List.range_succ, List.foldl_append, List.foldl_cons, List.foldl_nil]
      split_ifs with h
      · constructor
        · intro i hi
          simp only [Option.some.injEq] at hi
          subst hi
          exact ⟨h, by omega, fun j h1 h2 => by omega⟩
        · simp only [reduceCtorEq, false_iff]
          intro hn
          exact hn n (by omega) h
      · constructor
        · intro i hi
          obtain ⟨a, b, c⟩ := h1 i hi
          refine ⟨a, by omega, fun j hj hjn => ?_⟩
          rcases Nat.lt_or_ge j n with hlt | hge
          · exact c j hj hlt
          · have : j = n := by omega
            subst this; exact h
        · rw [h2]
          constructor
          · intro hh j hj
            rcases Nat.lt_or_ge j n with hlt | hge
            · exact hh j hlt
            · have : j = n := by omega
              subst this; exact h
          · intro hh j hj; exact hh j (by omega)
  obtain ⟨h1, h2⟩ := key types.length
  constructor
  · intro i hi
    obtain ⟨a, b, c⟩ := h1 i hi
    refine ⟨a, fun j hj => ?_⟩
    rcases Nat.lt_or_ge j types.length with hlt | hge
    · exact c j hj hlt
    · rw [List.getElem?_eq_none hge]; simp
  · unfold findType
    rw [h2]
    constructor
    · intro hh hm
      obtain ⟨j, hj, hje⟩ := List.getElem_of_mem hm
      exact hh j hj (by rw [List.getElem?_eq_getElem hj, hje])
    · intro hh j hj hje
      exact hh (List.mem_of_getElem? hje)

end MD.Reader
