import Verif.Model.Rounded
import Verif.Spec.Rounded
import Mathlib.Tactic.Linarith
import Mathlib.Tactic.Ring
import Mathlib.Tactic.Positivity

/-! # Rounding is to a nearest number -/

set_option linter.unusedSimpArgs false
set_option linter.unusedVariables false

namespace MD.Rounded

theorem rndNat_cases (p : ℕ) (hp : 0 < p) (k : ℕ) :
    ∃ s q r : ℕ, k = q * 2 ^ s + r ∧ r < 2 ^ s ∧ (s = 0 ∨ 2 ^ (p - 1) ≤ q) ∧ q < 2 ^ p ∧
      ((rndNat p k = q * 2 ^ s ∧ 2 * r ≤ 2 ^ s) ∨ (rndNat p k = (q + 1) * 2 ^ s ∧ 2 ^ s ≤ 2 * r)) := by
  refine ⟨Nat.size k - p, k / 2 ^ (Nat.size k - p), k % 2 ^ (Nat.size k - p), ?_, ?_, ?_, ?_, ?_⟩
  · rw [mul_comm]; exact (Nat.div_add_mod _ _).symm
  · exact Nat.mod_lt _ (by positivity)
  · by_cases h : Nat.size k - p = 0
    · exact Or.inl h
    · right
      rw [Nat.le_div_iff_mul_le (by positivity), ← pow_add]
      apply Nat.lt_size.mp
      omega
  · rw [Nat.div_lt_iff_lt_mul (by positivity), ← pow_add]
    refine lt_of_lt_of_le (Nat.lt_size_self k) (Nat.pow_le_pow_right (by norm_num) (by omega))
  · unfold rndNat
    dsimp only
    split
    · exact Or.inl ⟨rfl, by omega⟩
    · split
      · exact Or.inr ⟨rfl, by omega⟩
      · rcases Nat.mod_two_eq_zero_or_one (k / 2 ^ (Nat.size k - p)) with h | h
        · rw [h]; exact Or.inl ⟨by simp, by omega⟩
        · rw [h]; exact Or.inr ⟨rfl, by omega⟩

theorem fits_neg {p : ℕ} {k : ℤ} (h : Fits p k) : Fits p (-k) := by
  obtain ⟨m, s, hm, rfl⟩ := h
  exact ⟨-m, s, by simpa using hm, by ring⟩

theorem fits_zero (p : ℕ) : Fits p 0 := ⟨0, 0, by simp, by simp⟩

theorem rndNat_fits (p : ℕ) (hp : 0 < p) (k : ℕ) : Fits p (rndNat p k) := by
  obtain ⟨s, q, r, -, -, -, hq, h | h⟩ := rndNat_cases p hp k
  · refine ⟨q, s, ?_, by rw [h.1]; push_cast; ring⟩
    rw [abs_of_nonneg (by positivity)]; exact_mod_cast hq
  · by_cases he : q + 1 = 2 ^ p
    · refine ⟨2 ^ (p - 1), s + 1, ?_, ?_⟩
      · rw [abs_of_nonneg (by positivity)]
        exact pow_lt_pow_right₀ (by norm_num) (by omega)
      · rw [h.1, he]
        push_cast
        rw [← pow_add, ← pow_add]
        congr 1; omega
    · refine ⟨q + 1, s, ?_, by rw [h.1]; push_cast; ring⟩
      rw [abs_of_nonneg (by positivity)]
      have : q + 1 < 2 ^ p := by omega
      exact_mod_cast this

theorem rndNat_close (p : ℕ) (hp : 0 < p) (k : ℕ) :
    2 ^ p * |(rndNat p k : ℤ) - k| ≤ k := by
  obtain ⟨s, q, r, hk, hr, hs, hq, h⟩ := rndNat_cases p hp k
  have hk' : (k : ℤ) = q * 2 ^ s + r := by exact_mod_cast hk
  have hr' : (r : ℤ) < 2 ^ s := by exact_mod_cast hr
  have hr0 : (0 : ℤ) ≤ r := by positivity
  have h2 : 2 * |(rndNat p k : ℤ) - k| ≤ 2 ^ s ∧ (s = 0 → |(rndNat p k : ℤ) - k| = 0) := by
    rcases h with ⟨h, h'⟩ | ⟨h, h'⟩
    · have e : (rndNat p k : ℤ) - k = -r := by rw [h, hk']; push_cast; ring
      have h'' : 2 * (r : ℤ) ≤ 2 ^ s := by exact_mod_cast h'
      rw [e, abs_neg, abs_of_nonneg hr0]
      refine ⟨h'', ?_⟩
      rintro rfl
      simp at hr'; omega
    · have e : (rndNat p k : ℤ) - k = 2 ^ s - r := by rw [h, hk']; push_cast; ring
      have h'' : 2 ^ s ≤ 2 * (r : ℤ) := by exact_mod_cast h'
      rw [e, abs_of_nonneg (by linarith)]
      refine ⟨by linarith, ?_⟩
      rintro rfl
      simp at hr' h''; omega
  rcases hs with hs | hs
  · rw [h2.2 hs]; simp
  · have hq' : (2 : ℤ) ^ (p - 1) ≤ q := by exact_mod_cast hs
    have hpp : (2 : ℤ) ^ p = 2 ^ (p - 1) * 2 := by rw [← pow_succ]; congr 1; omega
    have : (2 : ℤ) ^ (p - 1) * 2 ^ s ≤ q * 2 ^ s := mul_le_mul_of_nonneg_right hq' (by positivity)
    have h3 : (2 : ℤ) ^ (p - 1) * (2 * |(rndNat p k : ℤ) - k|) ≤ 2 ^ (p - 1) * 2 ^ s :=
      mul_le_mul_of_nonneg_left h2.1 (by positivity)
    rw [hpp, mul_assoc]
    linarith

/-- No number with `p` digits is nearer. -/
theorem rndNat_nearest (p : ℕ) (hp : 0 < p) (k : ℕ) (d : ℤ) (hd : Fits p d) :
    |(rndNat p k : ℤ) - k| ≤ |d - k| := by
  obtain ⟨s, q, r, hk, hr, hs, hq, h⟩ := rndNat_cases p hp k
  have hk' : (k : ℤ) = q * 2 ^ s + r := by exact_mod_cast hk
  have hr' : (r : ℤ) < 2 ^ s := by exact_mod_cast hr
  have hr0 : (0 : ℤ) ≤ r := by positivity
  have h2 : |(rndNat p k : ℤ) - k| ≤ r ∧ |(rndNat p k : ℤ) - k| ≤ 2 ^ s - r := by
    rcases h with ⟨h, h'⟩ | ⟨h, h'⟩
    · have e : (rndNat p k : ℤ) - k = -r := by rw [h, hk']; push_cast; ring
      have h'' : 2 * (r : ℤ) ≤ 2 ^ s := by exact_mod_cast h'
      rw [e, abs_neg, abs_of_nonneg hr0]
      exact ⟨le_refl _, by linarith⟩
    · have e : (rndNat p k : ℤ) - k = 2 ^ s - r := by rw [h, hk']; push_cast; ring
      have h'' : 2 ^ s ≤ 2 * (r : ℤ) := by exact_mod_cast h'
      rw [e, abs_of_nonneg (by linarith)]
      exact ⟨by linarith, le_refl _⟩
  -- every such number is a multiple of `2 ^ s` or below `q * 2 ^ s`
  have key : d ≤ q * 2 ^ s ∨ ((q : ℤ) + 1) * 2 ^ s ≤ d := by
    obtain ⟨m, t, hm, rfl⟩ := hd
    have hm' := abs_lt.mp hm
    by_cases hts : s ≤ t
    · obtain ⟨j, rfl⟩ := Nat.exists_eq_add_of_le hts
      rw [show m * 2 ^ (s + j) = (m * 2 ^ j) * 2 ^ s by rw [pow_add]; ring]
      rcases le_or_gt (m * 2 ^ j) q with hle | hgt
      · exact Or.inl (mul_le_mul_of_nonneg_right hle (by positivity))
      · exact Or.inr (mul_le_mul_of_nonneg_right hgt (by positivity))
    · left
      rcases hs with hs | hs
      · omega
      · have hq' : (2 : ℤ) ^ (p - 1) ≤ q := by exact_mod_cast hs
        have hpp : (2 : ℤ) ^ p = 2 ^ (p - 1) * 2 := by rw [← pow_succ]; congr 1; omega
        have hss : (2 : ℤ) ^ t * 2 ≤ 2 ^ s := by
          rw [← pow_succ]; exact pow_le_pow_right₀ (by norm_num) (by omega)
        have a : m * 2 ^ t ≤ 2 ^ p * 2 ^ t :=
          mul_le_mul_of_nonneg_right hm'.2.le (by positivity)
        have b : (2 : ℤ) ^ (p - 1) * (2 ^ t * 2) ≤ 2 ^ (p - 1) * 2 ^ s :=
          mul_le_mul_of_nonneg_left hss (by positivity)
        have c : (2 : ℤ) ^ (p - 1) * 2 ^ s ≤ q * 2 ^ s :=
          mul_le_mul_of_nonneg_right hq' (by positivity)
        rw [hpp] at a
        linarith
  rcases key with hle | hge
  · refine h2.1.trans ?_
    rw [abs_sub_comm, abs_of_nonneg (by rw [hk']; linarith)]
    rw [hk']; linarith
  · refine h2.2.trans ?_
    have : 2 ^ s - (r : ℤ) ≤ d - k := by rw [hk']; linarith
    exact this.trans (le_abs_self _)

theorem rnd_fits (p : ℕ) (hp : 0 < p) (k : ℤ) : Fits p (rnd p k) := by
  unfold rnd
  split
  · exact rndNat_fits p hp _
  · exact fits_neg (rndNat_fits p hp _)

theorem rnd_close (p : ℕ) (hp : 0 < p) (k : ℤ) : 2 ^ p * |rnd p k - k| ≤ |k| := by
  unfold rnd
  split
  · rename_i h
    have := rndNat_close p hp k.toNat
    rw [Int.toNat_of_nonneg h] at this
    exact this.trans (le_abs_self k)
  · rename_i h
    have := rndNat_close p hp (-k).toNat
    rw [Int.toNat_of_nonneg (by omega)] at this
    rw [abs_of_neg (by omega : k < 0), abs_sub_comm]
    rwa [show k - -(rndNat p (-k).toNat : ℤ) = (rndNat p (-k).toNat : ℤ) - -k by ring]

theorem rnd_nearest (p : ℕ) (hp : 0 < p) (k d : ℤ) (hd : Fits p d) :
    |rnd p k - k| ≤ |d - k| := by
  unfold rnd
  split
  · rename_i h
    have := rndNat_nearest p hp k.toNat d hd
    rwa [Int.toNat_of_nonneg h] at this
  · rename_i h
    have := rndNat_nearest p hp (-k).toNat (-d) (fits_neg hd)
    rw [Int.toNat_of_nonneg (by omega)] at this
    rw [abs_sub_comm, abs_sub_comm d k]
    rwa [show k - -(rndNat p (-k).toNat : ℤ) = (rndNat p (-k).toNat : ℤ) - -k by ring,
      show k - d = -d - -k by ring]

theorem rnd_id (p : ℕ) (hp : 0 < p) (k : ℤ) (hk : Fits p k) : rnd p k = k := by
  have := rnd_nearest p hp k k hk
  rw [sub_self, abs_zero, abs_nonpos_iff] at this
  linarith

theorem rnd_nonneg (p : ℕ) (hp : 0 < p) (k : ℤ) (hk : 0 ≤ k) : 0 ≤ rnd p k := by
  unfold rnd; rw [if_pos hk]; positivity

/-- Rounding does not pass over a number with `p` digits. -/
theorem le_rnd (p : ℕ) (hp : 0 < p) (k d : ℤ) (hd : Fits p d) (h : d ≤ k) : d ≤ rnd p k := by
  have := rnd_nearest p hp k d hd
  rw [abs_sub_comm d k, abs_of_nonneg (by omega : 0 ≤ k - d)] at this
  have := neg_abs_le (rnd p k - k)
  omega

theorem rnd_le (p : ℕ) (hp : 0 < p) (k d : ℤ) (hd : Fits p d) (h : k ≤ d) : rnd p k ≤ d := by
  have := rnd_nearest p hp k d hd
  rw [abs_of_nonneg (by omega : 0 ≤ d - k)] at this
  have := le_abs_self (rnd p k - k)
  omega

/-- Two numbers with `p` digits differ by at least one part in `2 ^ p`. -/
theorem fits_gap (p : ℕ) (hp : 0 < p) (a b : ℤ) (ha : Fits p a) (hb : Fits p b) (h0 : 0 < a)
    (hab : a ≠ b) : a ≤ 2 ^ p * |a - b| := by
  obtain ⟨m, s, hm, rfl⟩ := ha
  obtain ⟨n, t, hn, rfl⟩ := hb
  have hm' := abs_lt.mp hm
  have hn' := abs_lt.mp hn
  have two : (1 : ℤ) ≤ 2 ^ p := one_le_pow₀ (by norm_num)
  by_cases hst : s ≤ t
  · obtain ⟨j, rfl⟩ := Nat.exists_eq_add_of_le hst
    have e : m * 2 ^ s - n * 2 ^ (s + j) = (m - n * 2 ^ j) * 2 ^ s := by rw [pow_add]; ring
    have hne : m - n * 2 ^ j ≠ 0 := by
      intro h0
      apply hab
      rw [← sub_eq_zero, e, h0, zero_mul]
    rw [e, abs_mul, abs_of_nonneg (by positivity : (0 : ℤ) ≤ 2 ^ s), ← mul_assoc]
    apply mul_le_mul_of_nonneg_right _ (by positivity)
    have : 1 ≤ |m - n * 2 ^ j| := Int.one_le_abs hne
    nlinarith
  · obtain ⟨j, rfl⟩ := Nat.exists_eq_add_of_le (show t ≤ s by omega)
    have e : m * 2 ^ (t + j) - n * 2 ^ t = (m * 2 ^ j - n) * 2 ^ t := by rw [pow_add]; ring
    have hne : m * 2 ^ j - n ≠ 0 := by
      intro h0
      apply hab
      rw [← sub_eq_zero, e, h0, zero_mul]
    rw [e, abs_mul, abs_of_nonneg (by positivity : (0 : ℤ) ≤ 2 ^ t), ← mul_assoc,
      show m * 2 ^ (t + j) = (m * 2 ^ j) * 2 ^ t by rw [pow_add]; ring]
    apply mul_le_mul_of_nonneg_right _ (by positivity)
    have h1 : 1 ≤ |m * 2 ^ j - n| := Int.one_le_abs hne
    rcases le_or_gt (m * 2 ^ j) (2 ^ p) with h | h
    · nlinarith
    · rw [abs_of_pos (by linarith)]
      nlinarith

/-- What is small enough is lost: taken away. -/
theorem absorb_sub (p : ℕ) (hp : 0 < p) (a h : ℤ) (ha : Fits p a) (h0 : 0 ≤ h)
    (hh : 2 ^ (p + 1) * h < a) : rnd p (a - h) = a := by
  by_contra hne
  have hp2 : (0 : ℤ) < 2 ^ p := by positivity
  have hpos : 0 < a := lt_of_le_of_lt (by positivity) hh
  have g := fits_gap p hp a (rnd p (a - h)) ha (rnd_fits p hp _) hpos (Ne.symm hne)
  have n := rnd_nearest p hp (a - h) a ha
  rw [show a - (a - h) = h by ring, abs_of_nonneg h0] at n
  have t : |a - rnd p (a - h)| ≤ 2 * h := by
    have : a - rnd p (a - h) = h - (rnd p (a - h) - (a - h)) := by ring
    rw [this]
    refine (abs_sub _ _).trans ?_
    rw [abs_of_nonneg h0]; linarith
  have : 2 ^ p * |a - rnd p (a - h)| ≤ 2 ^ p * (2 * h) := mul_le_mul_of_nonneg_left t hp2.le
  rw [pow_succ] at hh
  linarith

/-- What is small enough is lost: added. -/
theorem absorb_add (p : ℕ) (hp : 0 < p) (a h : ℤ) (ha : Fits p a) (h0 : 0 ≤ h)
    (hh : 2 ^ (p + 1) * h < a) : rnd p (a + h) = a := by
  by_contra hne
  have hp2 : (0 : ℤ) < 2 ^ p := by positivity
  have hpos : 0 < a := lt_of_le_of_lt (by positivity) hh
  have g := fits_gap p hp a (rnd p (a + h)) ha (rnd_fits p hp _) hpos (Ne.symm hne)
  have n := rnd_nearest p hp (a + h) a ha
  rw [show a - (a + h) = -h by ring, abs_neg, abs_of_nonneg h0] at n
  have t : |a - rnd p (a + h)| ≤ 2 * h := by
    have : a - rnd p (a + h) = -h - (rnd p (a + h) - (a + h)) := by ring
    rw [this]
    refine (abs_sub _ _).trans ?_
    rw [abs_neg, abs_of_nonneg h0]; linarith
  have : 2 ^ p * |a - rnd p (a + h)| ≤ 2 ^ p * (2 * h) := mul_le_mul_of_nonneg_left t hp2.le
  rw [pow_succ] at hh
  linarith

end MD.Rounded
