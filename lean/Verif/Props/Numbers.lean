import Mathlib.Tactic.Ring
import Mathlib.Tactic.NormNum
import Mathlib.Data.Nat.Digits.Lemmas
import Verif.Model.Text
import Verif.Props.Text

/-!
# The conversion of written numbers (C48)
-/

set_option linter.unusedSimpArgs false

namespace MD.Text

/-! ## Specification -/

/-- A number as it is written: sign, digits, point and digits, exponent. -/
structure Written where
  sign : Option Bool
  ip : Str
  dot : Bool
  fp : Str
  ex : Option (Bool × Option Bool × Str)

/-- The sign: `true` is minus. -/
def signText : Option Bool → Str
  | none => []
  | some true => ['-']
  | some false => ['+']

/-- The exponent: `true` is the capital letter. -/
def exText : Option (Bool × Option Bool × Str) → Str
  | none => []
  | some (big, s, ds) => (if big then 'E' else 'e') :: (signText s ++ ds)

def Written.text (n : Written) : Str :=
  signText n.sign ++ n.ip ++ (if n.dot then '.' :: n.fp else []) ++ exText n.ex

/-- Only digits where digits belong, and at least one before the exponent and one in it. -/
def Written.good (n : Written) : Prop :=
  (∀ c ∈ n.ip, c ∈ "0123456789".toList) ∧ (∀ c ∈ n.fp, c ∈ "0123456789".toList) ∧
  (n.dot = false → n.fp = []) ∧ (n.ip ≠ [] ∨ n.fp ≠ []) ∧
  ∀ b s ds, n.ex = some (b, s, ds) → ds ≠ [] ∧ ∀ c ∈ ds, c ∈ "0123456789".toList

/-- The value of digits, the last one counting units. -/
def digits (ds : Str) : ℕ := Nat.ofDigits 10 (ds.reverse.map fun c => c.toNat - 48)

def sgn : Option Bool → ℤ
  | some true => -1
  | _ => 1

/-- The value of the exponent. -/
def exValue : Option (Bool × Option Bool × Str) → ℤ
  | none => 0
  | some (_, s, ds) => sgn s * digits ds

def Written.value (n : Written) : ℚ :=
  sgn n.sign * (digits n.ip + digits n.fp / 10 ^ n.fp.length) * (10 : ℚ) ^ exValue n.ex

/-! ## The conversion -/

theorem natOf_snoc (ds : Str) (c : Char) : natOf (ds ++ [c]) = 10 * natOf ds + (c.toNat - 48) := by
  simp [natOf]

theorem natOf_digits (ds : Str) : natOf ds = digits ds := by
  induction ds using List.reverseRecOn with
  | nil => rfl
  | append_singleton ds c ih =>
    rw [natOf_snoc, ih, digits, digits]
    simp [Nat.ofDigits_cons]
    ring

theorem natOf_append (a b : Str) : natOf (a ++ b) = natOf a * 10 ^ b.length + natOf b := by
  induction b using List.reverseRecOn with
  | nil => simp [natOf]
  | append_singleton b c ih =>
    rw [← List.append_assoc, natOf_snoc, ih, natOf_snoc]
    simp [pow_succ]
    ring

theorem scale10_zpow (e : ℤ) : scale10 e = (10 : ℚ) ^ e := by
  unfold scale10
  split
  · next h =>
    conv_rhs => rw [← Int.toNat_of_nonneg h]
    rw [zpow_natCast]
  · next h =>
    have : e = -((-e).toNat : ℤ) := by omega
    conv_rhs => rw [this]
    rw [zpow_neg, zpow_natCast, one_div]

theorem isDigit_of {c : Char} (h : c ∈ "0123456789".toList) : isDigit c = true :=
  (C52_characters c).2.2.2.1.2 h

theorem digits_head {ds : Str} (h : ∀ c ∈ ds, isDigit c = true) (s : Option Bool) (rest : Str)
    (hne : ds ≠ []) : MD.Text.sign (signText s ++ (ds ++ rest)) = (s == some true, ds ++ rest) := by
  obtain ⟨d, ds, rfl⟩ := List.exists_cons_of_ne_nil hne
  have hd := h d (by simp)
  cases s with
  | none =>
    simp only [signText, List.nil_append, List.cons_append]
    unfold MD.Text.sign
    split
    · next e => simp only [List.cons.injEq] at e; rw [e.1] at hd; exact absurd hd (by decide)
    · next e => simp only [List.cons.injEq] at e; rw [e.1] at hd; exact absurd hd (by decide)
    · rfl
  | some b => cases b <;> rfl

theorem exponent_ex (ex : Option (Bool × Option Bool × Str))
    (h : ∀ b s ds, ex = some (b, s, ds) → ds ≠ [] ∧ ∀ c ∈ ds, isDigit c = true) :
    exponent (exText ex) = exValue ex := by
  cases ex with
  | none => rfl
  | some t =>
    obtain ⟨b, s, ds⟩ := t
    obtain ⟨hne, hd⟩ := h b s ds rfl
    have hs := digits_head hd s [] hne
    simp only [List.append_nil] at hs
    have htw : ds.takeWhile isDigit = ds := List.takeWhile_eq_self_iff.2 hd
    have hc : ((if b then 'E' else 'e') = 'e' || (if b then 'E' else 'e') = 'E') = true := by
      cases b <;> decide
    simp only [exText, exponent]
    rw [if_pos hc]
    simp only [hs, htw, natOf_digits]
    rcases s with _ | _ | _ <;> simp [sgn, exValue]

theorem exText_head (ex : Option (Bool × Option Bool × Str)) :
    (exText ex).takeWhile isDigit = [] ∧ (exText ex).dropWhile isDigit = exText ex ∧
      ∀ r, exText ex ≠ '.' :: r := by
  rcases ex with _ | ⟨b, s, ds⟩
  · simp [exText]
  · cases b <;> simp [exText, isDigit]

theorem takeWhile_digits {ds : Str} (h : ∀ c ∈ ds, isDigit c = true) (r : Str) :
    (ds ++ r).takeWhile isDigit = ds ++ r.takeWhile isDigit := by
  rw [List.takeWhile_append_of_pos h]

theorem dropWhile_digits {ds : Str} (h : ∀ c ∈ ds, isDigit c = true) (r : Str) :
    (ds ++ r).dropWhile isDigit = r.dropWhile isDigit := by
  rw [List.dropWhile_append_of_pos h]

/-- The part after the sign begins with a digit or a point. -/
theorem body_head (n : Written) (h : n.good) :
    ∃ c r, n.ip ++ (if n.dot then '.' :: n.fp else []) ++ exText n.ex = c :: r ∧
      (isDigit c = true ∨ c = '.') := by
  obtain ⟨h1, h2, h3, h4, -⟩ := h
  cases hip : n.ip with
  | nil =>
    rw [hip] at h4
    have hf : n.fp ≠ [] := by simpa using h4
    have hd : n.dot = true := by
      cases hd : n.dot with
      | true => rfl
      | false => exact absurd (h3 hd) hf
    exact ⟨'.', n.fp ++ exText n.ex, by simp [hd], Or.inr rfl⟩
  | cons c r =>
    exact ⟨c, r ++ (if n.dot then '.' :: n.fp else []) ++ exText n.ex, by simp,
      Or.inl (isDigit_of (h1 c (by simp [hip])))⟩

/-- C48: every number in decimal notation, with or without a sign, a fraction and an exponent, is
read as the number it denotes. -/
theorem C48_written (n : Written) (h : n.good) : strtold n.text = some (.fin n.value) := by
  obtain ⟨c, r, hb, hc⟩ := body_head n h
  obtain ⟨h1, h2, h3, h4, h5⟩ := h
  have d1 : ∀ c ∈ n.ip, isDigit c = true := fun c hc => isDigit_of (h1 c hc)
  have d2 : ∀ c ∈ n.fp, isDigit c = true := fun c hc => isDigit_of (h2 c hc)
  have d5 : ∀ b s ds, n.ex = some (b, s, ds) → ds ≠ [] ∧ ∀ c ∈ ds, isDigit c = true :=
    fun b s ds e => ⟨(h5 b s ds e).1, fun c hc => isDigit_of ((h5 b s ds e).2 c hc)⟩
  have hcn : 46 ≤ c.toNat ∧ c.toNat ≤ 57 := by
    rcases hc with hc | rfl
    · simp only [isDigit, Bool.and_eq_true, decide_eq_true_eq] at hc; omega
    · decide
  have htext : n.text = signText n.sign ++ (c :: r) := by
    rw [← hb, Written.text]; simp
  have hsp : ∀ x : Char, 43 ≤ x.toNat → isSpace x = false := fun x hx => by
    rw [Bool.eq_false_iff]
    intro h
    simp only [isSpace, Bool.or_eq_true, decide_eq_true_eq] at h
    rcases h with ((((rfl | rfl) | rfl) | rfl) | rfl) | rfl <;> revert hx <;> decide
  have h0 : n.text.dropWhile isSpace = n.text := by
    rw [htext]
    rcases n.sign with _ | _ | _
    · simp only [signText, List.nil_append]
      rw [List.dropWhile_cons_of_neg (by simp [hsp c (by omega)])]
    · rfl
    · rfl
  have hsign : MD.Text.sign n.text = (n.sign == some true, c :: r) := by
    rw [htext]
    rcases n.sign with _ | _ | _
    · simp only [signText, List.nil_append]
      unfold MD.Text.sign
      split
      · next e => simp only [List.cons.injEq] at e; rw [e.1] at hcn; exact absurd hcn (by decide)
      · next e => simp only [List.cons.injEq] at e; rw [e.1] at hcn; exact absurd hcn (by decide)
      · rfl
    · rfl
    · rfl
  have hlow : toLower c = c := by
    unfold toLower
    rw [if_neg]
    simp only [isUpper, Bool.and_eq_true, decide_eq_true_eq]
    omega
  have hni : c ≠ 'i' := by rintro rfl; revert hcn; decide
  have hnn : c ≠ 'n' := by rintro rfl; revert hcn; decide
  have hinf : startswith (lower (c :: r)) "inf".toList = false := by
    rw [show "inf".toList = ['i', 'n', 'f'] by decide]
    simp [startswith, lower, hlow, List.isPrefixOf, hni.symm]
  have hnan : startswith (lower (c :: r)) "nan".toList = false := by
    rw [show "nan".toList = ['n', 'a', 'n'] by decide]
    simp [startswith, lower, hlow, List.isPrefixOf, hnn.symm]
  obtain ⟨e1, e2, e3⟩ := exText_head n.ex
  have hip : (c :: r).takeWhile isDigit = n.ip := by
    rw [← hb, List.append_assoc, takeWhile_digits d1]
    cases n.dot
    · simp [e1]
    · simp [isDigit]
  have hrest : (c :: r).dropWhile isDigit = (if n.dot then '.' :: n.fp else []) ++ exText n.ex := by
    rw [← hb, List.append_assoc, dropWhile_digits d1]
    cases n.dot
    · simp [e2]
    · simp [isDigit]
  have hfp : fraction ((c :: r).dropWhile isDigit) = (n.fp, exText n.ex) := by
    rw [hrest]
    unfold fraction
    cases hd : n.dot
    · simp only [Bool.false_eq_true, if_false, List.nil_append]
      rw [h3 hd]
    · simp only [if_true, List.cons_append]
      rw [takeWhile_digits d2, dropWhile_digits d2, e1, e2, List.append_nil]
  have hne : ¬ (n.ip = [] ∧ n.fp = []) := by
    rintro ⟨a, b⟩
    rcases h4 with h | h
    · exact h a
    · exact h b
  unfold strtold
  rw [h0]
  simp only [hsign, hinf, hnan, hip, hfp, if_neg hne, Bool.false_eq_true, if_false]
  rw [exponent_ex n.ex d5, scale10_zpow, natOf_append, natOf_digits, natOf_digits]
  have h10 : (10 : ℚ) ^ n.fp.length ≠ 0 := by positivity
  have hv : ((digits n.ip * 10 ^ n.fp.length + digits n.fp : ℕ) : ℚ) / 10 ^ n.fp.length =
      digits n.ip + digits n.fp / 10 ^ n.fp.length := by
    push_cast
    rw [add_div, mul_div_assoc, div_self h10, mul_one]
  rw [hv, Written.value]
  rcases n.sign with _ | _ | _ <;> (simp [sgn]; try ring)

example : (⟨some true, "12".toList, true, "50".toList, some (false, some true, "1".toList)⟩ :
    Written).text = "-12.50e-1".toList ∧
    (⟨some true, "12".toList, true, "50".toList, some (false, some true, "1".toList)⟩ :
    Written).value = -5/4 := by
  refine ⟨by decide, ?_⟩
  simp [Written.value, exValue, digits, sgn, Nat.ofDigits_cons]
  norm_num

end MD.Text
