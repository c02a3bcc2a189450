import Verif.Lemmas.IO
import Verif.Spec.IO
import Mathlib.Algebra.Order.Field.Power

/-! Helper lemmas about `pack754`/`unpack754`. -/

set_option linter.unusedSimpArgs false

namespace MD.IO

theorem normDown_pow (y : ℚ) (h1 : 1 ≤ y) (h2 : y < 2) (n fuel : ℕ) (hf : n ≤ fuel) (sh : ℤ) :
    normDown fuel (y * 2 ^ n) sh = some (y, sh + n) := by
  induction n generalizing fuel sh with
  | zero =>
    unfold normDown
    rw [if_neg (by simp; exact h2)]
    simp
  | succ n ih =>
    obtain ⟨f, rfl⟩ : ∃ f, fuel = f + 1 := ⟨fuel - 1, by omega⟩
    unfold normDown
    have hp : (1 : ℚ) ≤ 2 ^ n := one_le_pow₀ (by norm_num)
    rw [if_pos (by rw [pow_succ]; nlinarith)]
    have : y * 2 ^ (n + 1) / 2 = y * 2 ^ n := by rw [pow_succ]; ring
    simp only [this]
    rw [ih f (by omega)]
    congr 2
    push_cast; ring

theorem normUp_pow (y : ℚ) (h1 : 1 ≤ y) (h2 : y < 2) (n fuel : ℕ) (hf : n ≤ fuel) (sh : ℤ) :
    normUp fuel (y / 2 ^ n) sh = some (y, sh - n) := by
  induction n generalizing fuel sh with
  | zero =>
    unfold normUp
    rw [if_neg (by simp; exact h1)]
    simp
  | succ n ih =>
    obtain ⟨f, rfl⟩ : ∃ f, fuel = f + 1 := ⟨fuel - 1, by omega⟩
    unfold normUp
    have hp : (1 : ℚ) ≤ 2 ^ n := one_le_pow₀ (by norm_num)
    rw [if_pos (by
      rw [div_lt_one (by positivity), pow_succ]; linarith)]
    have : y / 2 ^ (n + 1) * 2 = y / 2 ^ n := by rw [pow_succ]; field_simp
    simp only [this]
    rw [ih f (by omega)]
    congr 2
    push_cast; ring

/-- both normalisation loops of `pack754` -/
theorem norm_zpow (y : ℚ) (h1 : 1 ≤ y) (h2 : y < 2) (e : ℤ) (fuel : ℕ)
    (he : e.natAbs ≤ fuel) :
    ∃ x1 s1, normDown fuel (y * 2 ^ e) 0 = some (x1, s1) ∧ normUp fuel x1 s1 = some (y, e) := by
  rcases le_total 0 e with h | h
  · obtain ⟨n, rfl⟩ := Int.eq_ofNat_of_zero_le h
    refine ⟨y, n, ?_, ?_⟩
    · have := normDown_pow y h1 h2 n fuel (by simpa using he) 0
      simpa using this
    · have := normUp_pow y h1 h2 0 fuel (by omega) n
      simpa using this
  · obtain ⟨n, hn⟩ := Int.eq_ofNat_of_zero_le (Int.neg_nonneg.mpr h)
    have hen : e = -(n : ℤ) := by omega
    subst hen
    have hx : y * (2 : ℚ) ^ (-(n : ℤ)) = y / 2 ^ n := by
      rw [zpow_neg, zpow_natCast]; rfl
    rw [hx]
    refine ⟨y / 2 ^ n, 0, ?_, ?_⟩
    · unfold normDown
      have hp : (1 : ℚ) ≤ 2 ^ n := one_le_pow₀ (by norm_num)
      rw [if_neg]
      rw [ge_iff_le, not_le, div_lt_iff₀ (by positivity)]
      linarith
    · have := normUp_pow y h1 h2 n fuel (by simpa using he) 0
      simpa using this

theorem floor_signif (m : ℕ) (hm : m < 2 ^ 52) (c : ℚ) (hc : 2 ^ 52 ≤ c) (hc' : c ≤ 2 ^ 52 + 1 / 2) :
    (⌊(1 + (m : ℚ) / 2 ^ 52 - 1) * c⌋).toNat = m := by
  have hm' : (m : ℚ) < 2 ^ 52 := by exact_mod_cast hm
  have hm0 : (0 : ℚ) ≤ m := by positivity
  have : ⌊(1 + (m : ℚ) / 2 ^ 52 - 1) * c⌋ = (m : ℤ) := by
    rw [Int.floor_eq_iff]
    have e : (1 + (m : ℚ) / 2 ^ 52 - 1) * c = m * c / 2 ^ 52 := by ring
    rw [e]
    constructor
    · rw [le_div_iff₀ (by positivity)]
      push_cast
      nlinarith
    · rw [div_lt_iff₀ (by positivity)]
      push_cast
      nlinarith
  rw [this]; rfl

theorem word_or (s E m : ℕ) (hE : E < 2 ^ 11) (hm : m < 2 ^ 52) :
    ((s <<< 63) ||| (E * 2 ^ 52 ||| m)) = s * 2 ^ 63 + (E * 2 ^ 52 + m) := by
  have h1 : E * 2 ^ 52 ||| m = E * 2 ^ 52 + m := by
    rw [Nat.mul_comm, ← Nat.two_pow_add_eq_or_of_lt hm]
  rw [h1, Nat.shiftLeft_eq, Nat.mul_comm s, ← Nat.two_pow_add_eq_or_of_lt]
  have : E * 2 ^ 52 + m < 2 ^ 11 * 2 ^ 52 := by
    have : (E + 1) * 2 ^ 52 ≤ 2 ^ 11 * 2 ^ 52 := Nat.mul_le_mul_right _ hE
    omega
  calc _ < _ := this
    _ = 2 ^ 63 := by norm_num

theorem unpack_word (s E m : ℕ) (hs : s < 2) (hE : E < 2 ^ 11) (hm : m < 2 ^ 52)
    (hne : s * 2 ^ 63 + (E * 2 ^ 52 + m) ≠ 0) :
    unpack754 (s * 2 ^ 63 + (E * 2 ^ 52 + m)) =
      (1 + (m : ℚ) / 2 ^ 52) * 2 ^ ((E : ℤ) - 1023) * (if s = 1 then -1 else 1) := by
  unfold unpack754
  rw [if_neg hne]
  have h1 : (s * 2 ^ 63 + (E * 2 ^ 52 + m)) &&& (2 ^ 52 - 1) = m := by
    rw [Nat.and_two_pow_sub_one_eq_mod]; omega
  have h2 : ((s * 2 ^ 63 + (E * 2 ^ 52 + m)) >>> 52) &&& (2 ^ 11 - 1) = E := by
    rw [Nat.and_two_pow_sub_one_eq_mod, Nat.shiftRight_eq_div_pow]; omega
  have h3 : ((s * 2 ^ 63 + (E * 2 ^ 52 + m)) >>> 63) &&& 1 = s := by
    rw [Nat.and_one_is_mod, Nat.shiftRight_eq_div_pow]; omega
  simp only [h1, h2, h3]
  ring

theorem pack_of_norm (y : ℚ) (m : ℕ) (e : ℤ) (neg : Bool) (c : ℚ) (hc : FactorOk c)
    (hm : m < 2 ^ 52) (hy : y = 1 + (m : ℚ) / 2 ^ 52) (he : e.natAbs ≤ 2200) :
    pack754 2200 c (.fin ((if neg then -1 else 1) * (y * 2 ^ e))) =
      some (((if neg then 1 else 0) <<< 63) |||
        (((e + 1023) * 2 ^ 52 % 2 ^ 64).toNat ||| m)) := by
  have hm' : (m : ℚ) < 2 ^ 52 := by exact_mod_cast hm
  have hm0 : (0 : ℚ) ≤ m := by positivity
  have h1 : 1 ≤ y := by
    rw [hy]
    have : 0 ≤ (m : ℚ) / 2 ^ 52 := by positivity
    linarith
  have h2 : y < 2 := by
    rw [hy]
    have : (m : ℚ) / 2 ^ 52 < 1 := by rw [div_lt_one (by positivity)]; exact hm'
    linarith
  have hpos : 0 < y * (2 : ℚ) ^ e := by positivity
  obtain ⟨x1, s1, ha, hb⟩ := norm_zpow y h1 h2 e 2200 he
  have hfl := floor_signif m hm c hc.1 hc.2
  rw [← hy] at hfl
  cases neg
  · simp only [pack754, Bool.false_eq_true, if_false, one_mul]
    rw [if_neg hpos.ne', if_neg (not_lt.mpr hpos.le), if_neg (not_lt.mpr hpos.le)]
    simp only [ha, hb, hfl]
  · have hneg : -(y * (2 : ℚ) ^ e) < 0 := by linarith
    simp only [pack754, if_true, neg_mul, one_mul]
    rw [if_neg hneg.ne, if_pos hneg, if_pos hneg]
    simp only [neg_neg, ha, hb, hfl]

theorem exp_word (e : ℤ) (h1 : -1023 ≤ e) (h2 : e ≤ 1023) :
    ((e + 1023) * 2 ^ 52 % 2 ^ 64).toNat = (e + 1023).toNat * 2 ^ 52 := by omega

theorem exp_word_neg (e : ℤ) (h1 : -1074 ≤ e) (h2 : e < -1023) :
    ((e + 1023) * 2 ^ 52 % 2 ^ 64).toNat = 2 ^ 63 + (e + 1023 + 2048).toNat * 2 ^ 52 := by omega

end MD.IO
