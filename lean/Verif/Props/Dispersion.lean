import Verif.Lemmas.Dispersion

/-!
# C61: the wave number and the dispersion relation

The dispersion relation of linear waves is `ω² = g k tanh (k h)`.  The code does not solve it but uses an approximation (Newman's) for
`X = k h` in terms of `C = ω² h / g` with three branches and one correction.
-/

namespace MD.Waves

open Real

/-- **C61.** The wave number of the code satisfies the dispersion relation `ω² = g k tanh (k h)` up to one part in ten thousand, for
every frequency other than zero, gravity and depth. -/
theorem C61_dispersion (g h : ℝ) (hg : 0 < g) (hh : 0 < h) (omega : ℝ) (h0 : omega ≠ 0) :
    |g * waveNumber omega g h * tanh (waveNumber omega g h * h) - omega ^ 2| ≤ omega ^ 2 / 10000 := by
  have hw : 0 < omega * omega := mul_self_pos.2 h0
  have hC : 0 < omega * omega * h / g := by positivity
  obtain ⟨_, hs⟩ := Disp.solves hC
  have hk : g * waveNumber omega g h * tanh (waveNumber omega g h * h) - omega ^ 2 =
      (g / h) * (Waves.refine (omega * omega * h / g) (guess (omega * omega * h / g)) *
        tanh (Waves.refine (omega * omega * h / g) (guess (omega * omega * h / g))) - omega * omega * h / g) := by
    unfold waveNumber
    rw [if_neg h0]
    dsimp only
    generalize Waves.refine (omega * omega * h / g) (guess (omega * omega * h / g)) = X
    split_ifs
    · have e : -(X / h) * h = -X := by field_simp
      rw [e, tanh_neg]
      field_simp
    · have e : X / h * h = X := by field_simp
      rw [e]
      field_simp
  rw [hk, abs_mul, abs_of_pos (div_pos hg hh)]
  calc g / h * _ ≤ g / h * (omega * omega * h / g / 10000) := mul_le_mul_of_nonneg_left hs (div_pos hg hh).le
    _ = omega ^ 2 / 10000 := by field_simp

/-- **C61.** The dispersion relation has exactly one positive solution, and the wave number of the code is that near to it: up to one part
in ten thousand, for every frequency other than zero, gravity and depth. -/
theorem C61_solution (g h : ℝ) (hg : 0 < g) (hh : 0 < h) (omega : ℝ) (h0 : omega ≠ 0) :
    ∃ K, 0 < K ∧ g * K * tanh (K * h) = omega ^ 2 ∧ (∀ K', 0 < K' → g * K' * tanh (K' * h) = omega ^ 2 → K' = K) ∧
      |(|waveNumber omega g h| - K)| ≤ K / 10000 := by
  have hw : 0 < omega * omega := mul_self_pos.2 h0
  have hC : 0 < omega * omega * h / g := by positivity
  obtain ⟨hX, hs⟩ := Disp.solves hC
  have hk : |waveNumber omega g h| = Waves.refine (omega * omega * h / g) (guess (omega * omega * h / g)) / h := by
    unfold waveNumber
    rw [if_neg h0]
    dsimp only
    split_ifs
    · rw [abs_neg, abs_of_pos (div_pos hX hh)]
    · rw [abs_of_pos (div_pos hX hh)]
  rw [hk]
  generalize Waves.refine (omega * omega * h / g) (guess (omega * omega * h / g)) = X at *
  have hdim : ∀ K : ℝ, g * K * tanh (K * h) = omega ^ 2 ↔ (K * h) * tanh (K * h) = omega * omega * h / g := by
    intro K
    generalize tanh (K * h) = t
    rw [eq_div_iff hg.ne']
    constructor
    · intro e
      linear_combination h * e
    · intro e
      have : h * (g * K * t) = h * omega ^ 2 := by linear_combination e
      exact mul_left_cancel₀ hh.ne' this
  generalize omega * omega * h / g = C at *
  have hcont : ContinuousOn (fun x => x * tanh x) (Set.Icc 0 (2 * X)) :=
    fun x _ => ((continuous_id.continuousAt (x := x)).mul (Disp.hasDerivAt_tanh' x).continuousAt).continuousWithinAt
  have htx : 0 < tanh X := by
    have := Disp.tanh_strictMono' hX
    rwa [tanh_zero] at this
  have hmem : C ∈ Set.Icc (0 * tanh 0) (2 * X * tanh (2 * X)) := by
    constructor
    · rw [zero_mul]; exact hC.le
    · have h1 : tanh X ≤ tanh (2 * X) := Disp.tanh_strictMono'.monotone (by linarith)
      have h2 : X * tanh X ≤ X * tanh (2 * X) := mul_le_mul_of_nonneg_left h1 hX.le
      have := (abs_le.1 hs).1
      linarith
  obtain ⟨Y, ⟨hY0, _⟩, hY⟩ := intermediate_value_Icc (by linarith) hcont hmem
  have hY : Y * tanh Y = C := hY
  have hYp : 0 < Y := by
    rcases hY0.lt_or_eq with h | h
    · exact h
    · rw [← h, zero_mul] at hY
      linarith
  have hmul : Y / h * h = Y := by field_simp
  refine ⟨Y / h, div_pos hYp hh, (hdim _).2 (by rw [hmul]; exact hY), ?_, ?_⟩
  · intro K' hK' e
    have e := (hdim K').1 e
    have hK'h : 0 < K' * h := mul_pos hK' hh
    have hpos : ∀ z : ℝ, 0 < z → 0 < tanh z := fun z hz => by
      have := Disp.tanh_strictMono' hz
      rwa [tanh_zero] at this
    have : K' * h = Y := by
      rcases lt_trichotomy (K' * h) Y with hlt | heq | hgt
      · have := mul_lt_mul'' hlt (Disp.tanh_strictMono' hlt) hK'h.le (hpos _ hK'h).le
        linarith
      · exact heq
      · have := mul_lt_mul'' hgt (Disp.tanh_strictMono' hgt) hYp.le (hpos _ hYp).le
        linarith
    rw [← this]
    field_simp
  · have := Disp.near hX hYp hs hY
    rw [← sub_div, abs_div, abs_of_pos hh, div_div, mul_comm h, ← div_div]
    exact div_le_div_of_nonneg_right this hh.le

/-- A swell of 12 s in 50 m of water. -/
example : |9.8 * waveNumber 0.52 9.8 50 * tanh (waveNumber 0.52 9.8 50 * 50) - 0.52 ^ 2| ≤ 0.52 ^ 2 / 10000 :=
  C61_dispersion 9.8 50 (by norm_num) (by norm_num) 0.52 (by norm_num)

end MD.Waves
