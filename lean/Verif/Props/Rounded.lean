import Verif.Lemmas.Rounded
import Mathlib.Data.Rat.Cast.Order
import Mathlib.Tactic.FieldSimp

/-!
# C114: steps and clock with rounded numbers

What `MoorDyn_Step` does with the time when differences and sums are rounded to
`p` binary digits (53 for `double`, 24 for `float`).  Times are multiples of the
smallest positive number.
-/

set_option linter.unusedSimpArgs false
set_option linter.unusedVariables false
set_option linter.unusedSectionVars false

namespace MD.Rounded

variable {σ ε : Type}

/-- C114: the model of rounding is the rounding of IEEE 754: the result has `p`
digits and no number with `p` digits is nearer. -/
theorem C114_rounding (p : ℕ) (hp : 0 < p) (k : ℤ) :
    Fits p (rnd p k) ∧ ∀ d, Fits p d → |rnd p k - k| ≤ |d - k| :=
  ⟨rnd_fits p hp k, fun d hd => rnd_nearest p hp k d hd⟩

theorem runs_append (step : ℤ → σ → Except ε σ) (l1 l2 : List ℤ) (s s' : σ)
    (h : runs step l1 s = .ok s') : runs step (l1 ++ l2) s = runs step l2 s' := by
  induction l1 generalizing s with
  | nil => cases h; rfl
  | cons a l ih =>
    simp only [runs, List.cons_append] at h ⊢
    split at h
    · cases h
    · exact ih _ h

theorem loop_spec (p : ℕ) (hp : 0 < p) (dtM0 dt : ℤ) (h0 : 0 < dtM0)
    (hbig : dt < (2 ^ p + 1) * dtM0) (hfit : Fits p dtM0) (step : ℤ → σ → Except ε σ) (s0 : σ)
    (fuel : ℕ) (target : ℤ) (s : σ) (n : ℕ) (ht : 0 < target) (htd : target ≤ dt)
    (htf : Fits p target) (hfuel : target ≤ fuel)
    (herr : 2 ^ p * |n * dtM0 + target - dt| ≤ n * dt)
    (hcount : 2 ^ p * target + n * ((2 ^ p + 1) * dtM0 - dt) ≤ 2 ^ p * dt)
    (hrun : runs step (List.replicate n dtM0) s0 = .ok s) :
    ∃ r hs, loop p dtM0 step fuel target s (List.replicate n dtM0) = some (r, hs) ∧
      (∀ s', r = .ok s' → ∃ (n : ℕ) (h : ℤ), hs = h :: List.replicate n dtM0 ∧
        0 < h ∧ h ≤ dtM0 ∧ Fits p h ∧
        2 ^ p * |n * dtM0 + h - dt| ≤ n * dt ∧
        n * ((2 ^ p + 1) * dtM0 - dt) < 2 ^ p * dt ∧ runs step hs.reverse s0 = .ok s') ∧
      (∀ e, r = .error e → ∃ (n : ℕ) (h : ℤ), hs = List.replicate n dtM0 ∧ 0 < h ∧ h ≤ dtM0 ∧
        runs step (hs.reverse ++ [h]) s0 = .error e) := by
  have p2 : (0 : ℤ) < 2 ^ p := by positivity
  induction fuel generalizing target s n with
  | zero => exfalso; simp at hfuel; omega
  | succ f ih =>
    unfold loop
    rw [if_pos ht]
    dsimp only
    by_cases hlt : dtM0 < target
    · rw [if_pos hlt]
      cases hst : step dtM0 s with
      | error e =>
        refine ⟨.error e, _, rfl, ?_, ?_⟩
        · rintro s' h; cases h
        · rintro e' h
          cases h
          refine ⟨n, dtM0, rfl, h0, le_refl _, ?_⟩
          rw [List.reverse_replicate, runs_append step _ _ _ _ hrun]
          simp [runs, hst]
      | ok s' =>
        have hc := rnd_close p hp (target - dtM0)
        rw [abs_of_pos (by omega : 0 < target - dtM0)] at hc
        have h1 : 1 ≤ rnd p (target - dtM0) :=
          le_rnd p hp _ 1 ⟨1, 0, by simpa using one_lt_pow₀ (by norm_num : (1 : ℤ) < 2) (by omega : p ≠ 0), by simp⟩ (by omega)
        have hle := mul_le_mul_of_nonneg_left (le_abs_self (rnd p (target - dtM0) - (target - dtM0))) p2.le
        have hdec : 2 ^ p * rnd p (target - dtM0) ≤ 2 ^ p * target + target - (2 ^ p + 1) * dtM0 := by
          linarith
        have hlt' : rnd p (target - dtM0) < target := by
          have : 2 ^ p * rnd p (target - dtM0) < 2 ^ p * target := by linarith
          exact lt_of_mul_lt_mul_left this p2.le
        have hre : dtM0 :: List.replicate n dtM0 = List.replicate (n + 1) dtM0 := rfl
        rw [hre]
        refine ih (rnd p (target - dtM0)) s' (n + 1) (by omega) (by omega) (rnd_fits p hp _)
          (by push_cast at hfuel; omega) ?_ ?_ ?_
        · have e : ((n + 1 : ℕ) : ℤ) * dtM0 + rnd p (target - dtM0) - dt =
              (n * dtM0 + target - dt) + (rnd p (target - dtM0) - (target - dtM0)) := by
            push_cast; ring
          rw [e]
          have := mul_le_mul_of_nonneg_left (abs_add_le ((n : ℤ) * dtM0 + target - dt)
            (rnd p (target - dtM0) - (target - dtM0))) p2.le
          push_cast
          linarith
        · push_cast
          linarith
        · rw [show List.replicate (n + 1) dtM0 = List.replicate n dtM0 ++ [dtM0] from
              List.replicate_succ', runs_append step _ _ _ _ hrun]
          simp [runs, hst]
    · rw [if_neg hlt]
      cases hst : step target s with
      | error e =>
        refine ⟨.error e, _, rfl, ?_, ?_⟩
        · rintro s' h; cases h
        · rintro e' h
          cases h
          refine ⟨n, target, rfl, ht, by omega, ?_⟩
          rw [List.reverse_replicate, runs_append step _ _ _ _ hrun]
          simp [runs, hst]
      | ok s' =>
        have hz : rnd p (target - target) = 0 := by
          rw [sub_self]; exact rnd_id p hp 0 (fits_zero p)
        refine ⟨.ok s', target :: List.replicate n dtM0, ?_, ?_, ?_⟩
        · dsimp only
          rw [hz]
          unfold loop
          simp
        · rintro s'' h
          cases h
          refine ⟨n, target, rfl, ht, by omega, htf, herr, ?_, ?_⟩
          · have : 0 < 2 ^ p * target := mul_pos p2 ht
            linarith
          · rw [List.reverse_cons, List.reverse_replicate, runs_append step _ _ _ _ hrun]
            simp [runs, hst]
        · rintro e h; cases h

/-- C114: with rounded numbers, if `dt` is not more than `2 ^ p` internal time
steps, the loop stops.  If no step fails, there are `n` steps of exactly the
internal time step and one last step, which is positive and not longer; their
lengths add up to `dt` up to `n` times half a unit in the last digit of `dt`; and
`n` is not much larger than `dt / dtM0`. -/
theorem C114_steps (p : ℕ) (hp : 0 < p) (dtM0 dt : ℤ) (h0 : 0 < dtM0) (hdt : 0 < dt)
    (hfit : Fits p dtM0) (hdtf : Fits p dt) (hbig : dt < (2 ^ p + 1) * dtM0)
    (nxt : σ → σ) (step : ℤ → σ → Except ε σ) (s : σ) :
    ∃ fuel r hs, call p dtM0 nxt step fuel dt s = some (r, hs) ∧
      (∀ s', r = .ok s' → ∃ (n : ℕ) (h : ℤ), hs = h :: List.replicate n dtM0 ∧
        0 < h ∧ h ≤ dtM0 ∧ Fits p h ∧
        2 ^ p * |n * dtM0 + h - dt| ≤ n * dt ∧
        n * ((2 ^ p + 1) * dtM0 - dt) < 2 ^ p * dt ∧ runs step hs.reverse (nxt s) = .ok s') ∧
      (∀ e, r = .error e → ∃ (n : ℕ) (h : ℤ), hs = List.replicate n dtM0 ∧ 0 < h ∧ h ≤ dtM0 ∧
        runs step (hs.reverse ++ [h]) (nxt s) = .error e) := by
  refine ⟨dt.toNat, ?_⟩
  unfold call
  rw [if_neg (not_le.mpr hdt)]
  exact loop_spec p hp dtM0 dt h0 hbig hfit step (nxt s) dt.toNat dt (nxt s) 0 hdt (le_refl _) hdtf
    (by omega) (by simp) (by simp) rfl

/-- The clock when `n` steps of lengths `hs` (latest first) were done. -/
def clockAfter (p : ℕ) (t : ℤ) : List ℤ → ℤ
  | [] => t
  | h :: hs => tick p (clockAfter p t hs) h

/-- C114: the clock of a scheme which adds the step to the time does not go back,
and is off from the sum of the steps by one part in `2 ^ p` for each step at most. -/
theorem C114_clock (p : ℕ) (hp : 0 < p) (t : ℤ) (h0 : 0 ≤ t) (ht : Fits p t) (hs : List ℤ)
    (hpos : ∀ h ∈ hs, 0 ≤ h) :
    Fits p (clockAfter p t hs) ∧ t ≤ clockAfter p t hs ∧
      |(clockAfter p t hs : ℚ) - ((t + hs.sum : ℤ) : ℚ)| ≤
        ((1 + 1 / 2 ^ p) ^ hs.length - 1) * ((t + hs.sum : ℤ) : ℚ) := by
  induction hs with
  | nil => simp [clockAfter, ht]
  | cons h hs ih =>
    obtain ⟨i1, i2, i3⟩ := ih (fun a ha => hpos a (List.mem_cons_of_mem _ ha))
    have hh : 0 ≤ h := hpos h List.mem_cons_self
    have hsum : 0 ≤ hs.sum := List.sum_nonneg (fun a ha => hpos a (List.mem_cons_of_mem _ ha))
    set c := clockAfter p t hs with hc
    have p2 : (0 : ℚ) < 2 ^ p := by positivity
    refine ⟨rnd_fits p hp _, ?_, ?_⟩
    · change t ≤ rnd p (c + h)
      exact le_rnd p hp _ t ht (by omega)
    · change |((rnd p (c + h) : ℤ) : ℚ) - _| ≤ _
      have e := rnd_close p hp (c + h)
      rw [abs_of_nonneg (by omega : 0 ≤ c + h)] at e
      have e' : (2 : ℚ) ^ p * |((rnd p (c + h) : ℤ) : ℚ) - (c + h)| ≤ c + h := by exact_mod_cast e
      have e2 : |((rnd p (c + h) : ℤ) : ℚ) - (c + h)| ≤ (1 / 2 ^ p) * (c + h) := by
        rw [div_mul_eq_mul_div, one_mul, le_div_iff₀ p2]; linarith
      rw [List.sum_cons, List.length_cons, pow_succ]
      push_cast at i3 ⊢
      set u : ℚ := 1 / 2 ^ p with hu
      have u0 : 0 < u := by positivity
      set G : ℚ := (1 + u) ^ hs.length with hG
      have hG1 : 1 ≤ G := one_le_pow₀ (by linarith)
      set T : ℚ := (t : ℚ) + (hs.sum : ℚ) with hT
      have hT0 : (0 : ℚ) ≤ T := by
        have a : (0 : ℚ) ≤ t := by exact_mod_cast h0
        have b : (0 : ℚ) ≤ (hs.sum : ℚ) := by exact_mod_cast hsum
        rw [hT]; linarith
      have hh' : (0 : ℚ) ≤ h := by exact_mod_cast hh
      have hcT : (c : ℚ) ≤ G * T := by
        have := (abs_le.mp i3).2
        linarith
      have tri : |((rnd p (c + h) : ℤ) : ℚ) - ((t : ℚ) + (h + hs.sum))| ≤
          |((rnd p (c + h) : ℤ) : ℚ) - (c + h)| + |(c : ℚ) - T| := by
        have : ((rnd p (c + h) : ℤ) : ℚ) - ((t : ℚ) + (h + hs.sum)) =
            (((rnd p (c + h) : ℤ) : ℚ) - (c + h)) + ((c : ℚ) - T) := by rw [hT]; ring
        rw [this]; exact abs_add_le _ _
      have k1 : u * ((c : ℚ) + h) ≤ u * (G * T + h) :=
        mul_le_mul_of_nonneg_left (by linarith) u0.le
      have k2 : 0 ≤ (G - 1) * h := mul_nonneg (by linarith) hh'
      have k3 : 0 ≤ (G - 1) * (u * h) := mul_nonneg (by linarith) (mul_nonneg u0.le hh')
      have : (t : ℚ) + (h + hs.sum) = T + h := by rw [hT]; ring
      rw [this]
      rw [this] at tri
      nlinarith

theorem runs_clock (p : ℕ) (step : ℤ → σ → Except ε σ) (clk : σ → ℤ)
    (hclk : ∀ h s s', step h s = .ok s' → clk s' = tick p (clk s) h) (hs : List ℤ) (s s' : σ)
    (h : runs step hs.reverse s = .ok s') : clk s' = clockAfter p (clk s) hs := by
  induction hs generalizing s' with
  | nil => cases h; rfl
  | cons a l ih =>
    rw [List.reverse_cons] at h
    cases h1 : runs step l.reverse s with
    | error e =>
      exfalso
      have : ∀ (l1 l2 : List ℤ) (s : σ), runs step l1 s = .error e →
          runs step (l1 ++ l2) s = .error e := by
        intro l1
        induction l1 with
        | nil => intro l2 s h; cases h
        | cons b m ihm =>
          intro l2 s h
          simp only [runs, List.cons_append] at h ⊢
          split at h
          · exact h
          · exact ihm _ _ h
      rw [this _ _ _ h1] at h
      cases h
    | ok s1 =>
      rw [runs_append step _ _ _ _ h1] at h
      simp only [runs] at h
      split at h
      · cases h
      · rename_i s2 h2
        cases h
        rw [hclk _ _ _ h2, ih _ h1]
        rfl

/-- C114: the whole call.  With a scheme which adds each step to its clock, the
clock is at `t + dt` after a call in which no step fails, up to one part in
`2 ^ p` of it for each of the `n + 1` steps, and as much of `dt`. -/
theorem C114_call (p : ℕ) (hp : 0 < p) (dtM0 dt : ℤ) (h0 : 0 < dtM0) (hdt : 0 < dt)
    (hfit : Fits p dtM0) (hdtf : Fits p dt) (hbig : dt < (2 ^ p + 1) * dtM0)
    (nxt : σ → σ) (step : ℤ → σ → Except ε σ) (clk : σ → ℤ) (s : σ)
    (hnxt : clk (nxt s) = clk s)
    (hclk : ∀ h s s', step h s = .ok s' → clk s' = tick p (clk s) h)
    (ht0 : 0 ≤ clk s) (htf : Fits p (clk s)) :
    ∃ fuel r hs, call p dtM0 nxt step fuel dt s = some (r, hs) ∧
      ∀ s', r = .ok s' → ∃ n : ℕ, hs.length = n + 1 ∧ clk s ≤ clk s' ∧
        |(clk s' : ℚ) - (clk s + dt)| ≤
          ((1 + 1 / 2 ^ p) ^ (n + 1) - 1) * (clk s + dt + n * (1 / 2 ^ p) * dt) +
            n * (1 / 2 ^ p) * dt := by
  obtain ⟨fuel, r, hs, e, hok, -⟩ :=
    C114_steps p hp dtM0 dt h0 hdt hfit hdtf hbig nxt step s
  refine ⟨fuel, r, hs, e, ?_⟩
  intro s' hr
  obtain ⟨n, h, rfl, hh0, hh1, hhf, herr, -, hrun⟩ := hok s' hr
  have hc := runs_clock p step clk hclk _ _ _ hrun
  rw [hnxt] at hc
  obtain ⟨-, hmono, hbound⟩ := C114_clock p hp (clk s) ht0 htf (h :: List.replicate n dtM0) (by
    intro a ha
    rcases List.mem_cons.mp ha with rfl | ha
    · exact hh0.le
    · rw [(List.mem_replicate.mp ha).2]; exact h0.le)
  rw [← hc] at hmono hbound
  refine ⟨n, by simp, hmono, ?_⟩
  have hsum : (h :: List.replicate n dtM0).sum = h + n * dtM0 := by simp
  rw [hsum, List.length_cons, List.length_replicate] at hbound
  have p2 : (0 : ℚ) < 2 ^ p := by positivity
  have herr' : (2 : ℚ) ^ p * |(n : ℚ) * dtM0 + h - dt| ≤ n * dt := by exact_mod_cast herr
  have herr2 : |(n : ℚ) * dtM0 + h - dt| ≤ n * (1 / 2 ^ p) * dt := by
    rw [mul_one_div, div_mul_eq_mul_div, le_div_iff₀ p2]; linarith
  set u : ℚ := 1 / 2 ^ p with hu
  have u0 : 0 < u := by positivity
  have hG1 : 0 ≤ (1 + u) ^ (n + 1) - 1 := by
    have : 1 ≤ (1 + u) ^ (n + 1) := one_le_pow₀ (by linarith)
    linarith
  push_cast at hbound
  have a := abs_le.mp herr2
  have tri : |(clk s' : ℚ) - (clk s + dt)| ≤ |(clk s' : ℚ) - (clk s + (h + n * dtM0))| +
      |(n : ℚ) * dtM0 + h - dt| := by
    have : (clk s' : ℚ) - (clk s + dt) =
        ((clk s' : ℚ) - (clk s + (h + n * dtM0))) + ((n : ℚ) * dtM0 + h - dt) := by ring
    rw [this]; exact abs_add_le _ _
  have k : ((1 + u) ^ (n + 1) - 1) * ((clk s : ℚ) + (h + n * dtM0)) ≤
      ((1 + u) ^ (n + 1) - 1) * (clk s + dt + n * u * dt) :=
    mul_le_mul_of_nonneg_left (by linarith) hG1
  linarith

/-- C114: if the internal time step is less than one part in `2 ^ (p + 1)` of `dt`,
the call never returns. -/
theorem C114_hangs (p : ℕ) (hp : 0 < p) (dtM0 dt : ℤ) (h0 : 0 ≤ dtM0) (hdtf : Fits p dt)
    (hsmall : 2 ^ (p + 1) * dtM0 < dt) (nxt : σ → σ) (step : ℤ → σ → Except ε σ)
    (hstep : ∀ h s, ∃ s', step h s = .ok s') (fuel : ℕ) (s : σ) :
    call p dtM0 nxt step fuel dt s = none := by
  have hdt : 0 < dt := lt_of_le_of_lt (by positivity) hsmall
  have hlt : dtM0 < dt := by
    have : (1 : ℤ) ≤ 2 ^ (p + 1) := one_le_pow₀ (by norm_num)
    nlinarith
  unfold call
  rw [if_neg (not_le.mpr hdt)]
  generalize ([] : List ℤ) = done
  generalize nxt s = s
  induction fuel generalizing s done with
  | zero => unfold loop; rw [if_pos hdt]
  | succ f ih =>
    unfold loop
    rw [if_pos hdt]
    dsimp only
    rw [if_pos hlt]
    obtain ⟨s', hs'⟩ := hstep dtM0 s
    rw [hs']
    dsimp only
    rw [absorb_sub p hp dt dtM0 hdtf h0 hsmall]
    exact ih _ _

/-- C114: when the step is less than one part in `2 ^ (p + 1)` of the time, the
clock stands still. -/
theorem C114_clock_stops (p : ℕ) (hp : 0 < p) (t h : ℤ) (ht : Fits p t) (h0 : 0 ≤ h)
    (hsmall : 2 ^ (p + 1) * h < t) (n : ℕ) :
    clockAfter p t (List.replicate n h) = t := by
  induction n with
  | zero => rfl
  | succ n ih =>
    rw [List.replicate_succ]
    change rnd p (clockAfter p t (List.replicate n h) + h) = t
    rw [ih]
    exact absorb_add p hp t h ht h0 hsmall

/-! ## Concrete numbers -/

/-- The `double` 0.1, 3602879701896397 * 2^-55. -/
def tenth : ℤ := 3602879701896397 * 2 ^ 1019
/-- The `double` 1.0. -/
def one : ℤ := 2 ^ 1074

theorem tenth_fits : Fits 53 tenth := ⟨3602879701896397, 1019, by norm_num, rfl⟩
theorem one_fits : Fits 53 one := ⟨1, 1074, by norm_num, by rw [one_mul]; rfl⟩

/-- C114, a call of one second with internal steps of 0.1 s in `double`: eleven
steps, not ten, and the last is 1.4e-16 s. -/
theorem C114_ten_tenths_false :
    (call (σ := Unit) (ε := Empty) 53 tenth id (fun _ _ => .ok ()) 20 one ()).map Prod.snd =
      some (5 * 2 ^ 1019 :: List.replicate 10 tenth) := by
  decide +kernel

/-- The hypotheses of `C114_steps` and `C114_call`: steps of 0.1 s in a call of 1 s,
with the clock as the state. -/
example : ∃ fuel r hs, call (ε := Empty) 53 tenth id (fun h t => .ok (tick 53 t h)) fuel one 0 =
    some (r, hs) ∧ ∀ t : ℤ, r = .ok t → ∃ n : ℕ, hs.length = n + 1 ∧ 0 ≤ t ∧
      |(t : ℚ) - ((0 : ℤ) + one)| ≤
        ((1 + 1 / 2 ^ 53) ^ (n + 1) - 1) * ((0 : ℤ) + one + n * (1 / 2 ^ 53) * one) +
          n * (1 / 2 ^ 53) * one :=
  C114_call 53 (by norm_num) tenth one (by decide +kernel) (by decide +kernel) tenth_fits one_fits
    (by decide +kernel) id _ id 0 rfl (by intro h s s' e; cases e; rfl) (le_refl _) (fits_zero _)

example : one < (2 ^ 53 + 1) * tenth := by decide +kernel

/-- An internal time step of 1e-17 s, or less, and a call of one second. -/
example (step : ℤ → Unit → Except Empty Unit) (fuel : ℕ) :
    call 53 (2 ^ 1019) id step fuel one () = none :=
  C114_hangs 53 (by norm_num) (2 ^ 1019) one (by positivity) one_fits (by decide +kernel)
    id step (fun h s => by
      cases hs : step h s with
      | ok s' => exact ⟨s', rfl⟩
      | error e => exact e.elim) fuel ()

/-- Ten steps of a tenth of a second, from zero: the clock is not at one second. -/
example : clockAfter 53 0 (List.replicate 10 tenth) = one - 2 ^ (1074 - 53) := by decide +kernel

/-- In `float`, after 2^26 s (two years) steps of one second would be lost. -/
example (n : ℕ) : clockAfter 24 (2 ^ (149 + 26)) (List.replicate n (2 ^ 149)) = 2 ^ (149 + 26) :=
  C114_clock_stops 24 (by norm_num) _ _ ⟨1, 175, by norm_num, by norm_num⟩ (by positivity)
    (by norm_num) n

end MD.Rounded
