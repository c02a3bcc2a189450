import Verif.Model.Interp
import Verif.Spec.Interp
import Mathlib.Tactic.Linarith
import Mathlib.Tactic.FieldSimp
import Mathlib.Tactic.Ring
import Mathlib.Tactic.Module
import Mathlib.Algebra.Order.Ring.Basic

/-! Helper lemmas on interpolation. -/

set_option linter.unusedSimpArgs false
set_option linter.unusedSectionVars false

namespace MD.Interp

variable {K V : Type} [Field K] [LinearOrder K] [IsStrictOrderedRing K] [AddCommGroup V] [Module K V]

/-- strictly increasing -/
abbrev Inc (xp : List K) : Prop := xp.Pairwise (· < ·)

theorem Inc.lt {xp : List K} (h : Inc xp) {i j : ℕ} (hij : i < j) (hj : j < xp.length) :
    xp[i]'(by omega) < xp[j] := List.pairwise_iff_getElem.mp h i j _ _ hij

theorem Inc.le {xp : List K} (h : Inc xp) {i j : ℕ} (hij : i ≤ j) (hj : j < xp.length) :
    xp[i]'(by omega) ≤ xp[j] := by
  rcases Nat.lt_or_ge i j with h1 | h1
  · exact le_of_lt (h.lt h1 hj)
  · have : i = j := by omega
    subst this; exact le_refl _

theorem factorLoop_spec (xp : List K) (h : Inc xp) (x : K) (fuel i : ℕ) (hi : 1 ≤ i)
    (hf : i + fuel = xp.length) (hpos : 0 < fuel) (hlo : xp[i - 1]'(by omega) < x)
    (hhi : x < xp[xp.length - 1]'(by omega)) :
    ∃ (j : ℕ) (f : K) (hj : j < xp.length), factorLoop xp x i fuel = some (j, f) ∧ i ≤ j ∧ 0 ≤ f ∧ f ≤ 1 ∧
      xp[j - 1]'(by omega) < x ∧ x ≤ xp[j] ∧
      xp[j - 1]'(by omega) + f * (xp[j] - xp[j - 1]'(by omega)) = x := by
  induction fuel generalizing i with
  | zero => omega
  | succ fuel ih =>
    have hlt : i < xp.length := by omega
    simp only [factorLoop, List.getElem?_eq_getElem hlt, Option.bind_eq_bind, Option.bind_some]
    by_cases hx : x ≤ xp[i]
    · rw [if_pos hx]
      have h0 : i - 1 < xp.length := by omega
      simp only [List.getElem?_eq_getElem h0, Option.bind_some, Option.pure_def]
      have hd : xp[i - 1] < xp[i] := h.lt (by omega) hlt
      have hd' : 0 < xp[i] - xp[i - 1] := by linarith
      refine ⟨i, _, hlt, rfl, le_refl _, ?_, ?_, hlo, hx, ?_⟩
      · apply div_nonneg <;> linarith
      · rw [div_le_one hd']; linarith
      · field_simp; ring
    · rw [if_neg hx]
      push Not at hx
      have hpos' : 0 < fuel := by
        rcases Nat.eq_zero_or_pos fuel with h0 | h0
        · exfalso
          have : xp[i] = xp[xp.length - 1]'(by omega) := by congr 1; omega
          rw [this] at hx
          linarith
        · exact h0
      obtain ⟨j, f, hj, h1, h2, h3⟩ := ih (i + 1) (by omega) (by omega) hpos' (by simpa using hx) hhi
      exact ⟨j, f, hj, h1, by omega, h3⟩

/-- the search index of `interp_factor` after the adjustments -/
def startIdx (n i0 : ℕ) : ℕ :=
  let i0 := if i0 = 0 then 1 else i0
  if i0 > n - 1 then n - 1 else i0

theorem interpFactor_spec (xp : List K) (h : Inc xp) (hn : 2 ≤ xp.length) (i0 : ℕ) (x : K)
    (hstart : startIdx xp.length i0 = 1 ∨ ∃ (hs : startIdx xp.length i0 - 1 < xp.length),
      xp[startIdx xp.length i0 - 1] ≤ x) :
    ∃ (j : ℕ) (f : K) (hj : j < xp.length), interpFactor xp i0 x = some (j, f) ∧ 1 ≤ j ∧ 0 ≤ f ∧ f ≤ 1 ∧
      xp[j - 1]'(by omega) + f * (xp[j] - xp[j - 1]'(by omega)) =
        clamp (xp[0]'(by omega)) (xp[xp.length - 1]'(by omega)) x := by
  have hs1 : 1 ≤ startIdx xp.length i0 := by
    unfold startIdx; simp only; split <;> split <;> omega
  have hs2 : startIdx xp.length i0 < xp.length := by
    unfold startIdx; simp only; split <;> split <;> omega
  have h01 : xp[0]'(by omega) < xp[xp.length - 1]'(by omega) := h.lt (by omega) (by omega)
  have hunf : interpFactor xp i0 x = (do
      let a ← xp[startIdx xp.length i0 - 1]?
      if x ≤ a then return (startIdx xp.length i0, 0)
      let b ← xp.getLast?
      if b ≤ x then return (xp.length - 1, 1)
      factorLoop xp x (startIdx xp.length i0) (xp.length - startIdx xp.length i0)) := by
    unfold interpFactor
    rw [if_neg (by omega), if_neg (by omega)]
    rfl
  rw [hunf]
  generalize hsd : startIdx xp.length i0 = s at *
  have hs0 : s - 1 < xp.length := by omega
  simp only [List.getElem?_eq_getElem hs0, Option.bind_eq_bind, Option.bind_some, Option.pure_def]
  by_cases hx : x ≤ xp[s - 1]
  · rw [if_pos hx]
    refine ⟨s, 0, hs2, rfl, hs1, le_refl _, zero_le_one, ?_⟩
    rw [zero_mul, add_zero]
    rcases hstart with h1 | ⟨_, h1⟩
    · subst h1
      simp only [Nat.sub_self] at hx ⊢
      unfold clamp
      rw [min_eq_left (le_trans hx (le_of_lt h01)), max_eq_left hx]
    · have : x = xp[s - 1] := le_antisymm hx h1
      unfold clamp
      rw [this, min_eq_left (h.le (by omega) (by omega)), max_eq_right (h.le (by omega) (by omega))]
  · rw [if_neg hx]
    push Not at hx
    have hlast : xp.getLast? = some (xp[xp.length - 1]'(by omega)) := by
      rw [List.getLast?_eq_getElem?, List.getElem?_eq_getElem]
    rw [hlast]
    simp only [Option.bind_some]
    by_cases hx2 : xp[xp.length - 1]'(by omega) ≤ x
    · rw [if_pos hx2]
      refine ⟨xp.length - 1, 1, by omega, rfl, by omega, zero_le_one, le_refl _, ?_⟩
      unfold clamp
      rw [min_eq_right hx2, max_eq_right (le_of_lt h01)]; ring
    · rw [if_neg hx2]
      push Not at hx2
      obtain ⟨j, f, hj, h1, h2, h3, h4, h5, h6, h7⟩ :=
        factorLoop_spec xp h x (xp.length - s) s hs1 (by omega) (by omega) hx hx2
      refine ⟨j, f, hj, h1, by omega, h3, h4, ?_⟩
      rw [h7]
      unfold clamp
      rw [min_eq_left (le_of_lt hx2), max_eq_right]
      exact le_trans (h.le (by omega) (by omega)) (le_of_lt hx)

theorem interpFactor_one (xp : List K) (h : Inc xp) (hn : 2 ≤ xp.length) (x : K) :
    ∃ (j : ℕ) (f : K) (hj : j < xp.length), interpFactor xp 1 x = some (j, f) ∧ 1 ≤ j ∧ 0 ≤ f ∧ f ≤ 1 ∧
      xp[j - 1]'(by omega) + f * (xp[j] - xp[j - 1]'(by omega)) =
        clamp (xp[0]'(by omega)) (xp[xp.length - 1]'(by omega)) x := by
  apply interpFactor_spec xp h hn
  left
  unfold startIdx; simp only; split <;> split <;> omega

/-- the described position determines the chord value -/
theorem chord_value (xp : List K) (yp : List V) (h : Inc xp) (hlen : yp.length = xp.length)
    (j : ℕ) (f : K) (hj : j < xp.length) (hj1 : 1 ≤ j) (hf0 : 0 ≤ f) (hf1 : f ≤ 1) (x : K)
    (hx : xp[j - 1]'(by omega) + f * (xp[j] - xp[j - 1]'(by omega)) =
      clamp (xp[0]'(by omega)) (xp[xp.length - 1]'(by omega)) x) :
    IsInterp xp yp x (yp[j - 1]'(by omega) + f • (yp[j]'(by omega) - yp[j - 1]'(by omega))) := by
  set y := yp[j - 1]'(by omega) + f • (yp[j]'(by omega) - yp[j - 1]'(by omega)) with hy
  set p := xp[j - 1]'(by omega) + f * (xp[j] - xp[j - 1]'(by omega)) with hp
  have h01 : xp[0]'(by omega) ≤ xp[xp.length - 1]'(by omega) := h.le (by omega) (by omega)
  have hd : xp[j - 1]'(by omega) < xp[j] := h.lt (by omega) hj
  have hp0 : xp[j - 1]'(by omega) ≤ p := by
    rw [hp]; nlinarith
  have hp1 : p ≤ xp[j] := by
    rw [hp]; nlinarith
  -- value at any p in any interval
  have key : ∀ (i : ℕ) (hi : i + 1 < xp.length), xp[i]'(by omega) ≤ p → p ≤ xp[i + 1] →
      (xp[i + 1] - xp[i]'(by omega)) • y = (xp[i + 1] - p) • yp[i]'(by omega) +
        (p - xp[i]'(by omega)) • yp[i + 1]'(by omega) := by
    intro i hi h1 h2
    rcases lt_trichotomy i (j - 1) with hij | hij | hij
    · -- p ≤ xp[i+1] ≤ xp[j-1] ≤ p
      have ha := h.le (show i + 1 ≤ j - 1 by omega) (show j - 1 < xp.length by omega)
      have hpe : p = xp[j - 1]'(by omega) := le_antisymm (le_trans h2 ha) hp0
      have hie : xp[i + 1] = xp[j - 1]'(by omega) := le_antisymm ha (by rw [← hpe]; exact h2)
      have hij' : i + 1 = j - 1 := by
        by_contra hne
        have := h.lt (show i + 1 < j - 1 by omega) (show j - 1 < xp.length by omega)
        rw [hie] at this; exact lt_irrefl _ this
      have hf : f = 0 := by
        have : f * (xp[j] - xp[j - 1]'(by omega)) = 0 := by linarith
        rcases mul_eq_zero.mp this with h | h
        · exact h
        · linarith
      have hyy : yp[i + 1]'(by omega) = yp[j - 1]'(by omega) := by congr 1
      rw [hy, hf, hyy, hpe, hie]
      module
    · subst hij
      have e1 : j - 1 + 1 = j := by omega
      simp only [e1]
      rw [hy, hp]
      module
    · have ha := h.le (show j ≤ i by omega) (show i < xp.length by omega)
      have hpe : p = xp[j] := le_antisymm hp1 (le_trans ha h1)
      have hie : xp[i]'(by omega) = xp[j] := le_antisymm (by rw [← hpe]; exact h1) ha
      have hij' : i = j := by
        by_contra hne
        have := h.lt (show j < i by omega) (show i < xp.length by omega)
        rw [hie] at this; exact lt_irrefl _ this
      subst hij'
      have hf : f = 1 := by
        have : (1 - f) * (xp[i] - xp[i - 1]'(by omega)) = 0 := by
          have : xp[i - 1]'(by omega) + f * (xp[i] - xp[i - 1]'(by omega)) = xp[i] := hpe
          linarith
        rcases mul_eq_zero.mp this with h | h
        · linarith
        · linarith
      rw [hy, hf, hpe]
      module
  refine ⟨?_, ?_, ?_⟩
  · intro a b ha hb hxa
    have ha' : xp[0]'(by omega) = a := by
      rw [List.head?_eq_getElem?, List.getElem?_eq_getElem (by omega)] at ha; simpa using ha
    have hb' : yp[0]'(by omega) = b := by
      rw [List.head?_eq_getElem?, List.getElem?_eq_getElem (by omega)] at hb; simpa using hb
    have hpa : p = xp[0]'(by omega) := by
      rw [hx, ha']; unfold clamp
      exact max_eq_left (le_trans (min_le_left _ _) hxa)
    have k0 := key 0 (by omega) (by rw [hpa]) (by rw [hpa]; exact h.le (by omega) (by omega))
    rw [hpa, sub_self, zero_smul, add_zero] at k0
    have hd0 : xp[0 + 1]'(by omega) - xp[0]'(by omega) ≠ 0 := by
      have := h.lt (show 0 < 0 + 1 by omega) (show 0 + 1 < xp.length by omega)
      intro h0; linarith
    rw [← hb']
    have := congrArg (fun v => (xp[0 + 1]'(by omega) - xp[0]'(by omega))⁻¹ • v) k0
    simpa only [smul_smul, inv_mul_cancel₀ hd0, one_smul] using this
  · intro a b ha hb hxa
    have ha' : xp[xp.length - 1]'(by omega) = a := by
      rw [List.getLast?_eq_getElem?, List.getElem?_eq_getElem (by omega)] at ha; simpa using ha
    have hb' : yp[xp.length - 1]'(by omega) = b := by
      rw [List.getLast?_eq_getElem?, List.getElem?_eq_getElem (by omega)] at hb
      simp only [Option.some.injEq] at hb
      rw [← hb]; congr 1; omega
    have hpa : p = xp[xp.length - 1]'(by omega) := by
      rw [hx]; unfold clamp
      rw [min_eq_right (by rw [ha']; exact hxa), max_eq_right h01]
    obtain ⟨m, hm⟩ : ∃ m, xp.length = m + 2 := ⟨xp.length - 2, by omega⟩
    have e1 : xp.length - 1 = m + 1 := by omega
    simp only [e1] at hpa hb'
    have k0 := key m (by omega) (by rw [hpa]; exact h.le (by omega) (by omega)) (by rw [hpa])
    rw [hpa, sub_self, zero_smul, zero_add] at k0
    have hd0 : xp[m + 1]'(by omega) - xp[m]'(by omega) ≠ 0 := by
      have := h.lt (show m < m + 1 by omega) (show m + 1 < xp.length by omega)
      intro h0; linarith
    rw [← hb']
    have := congrArg (fun v => (xp[m + 1]'(by omega) - xp[m]'(by omega))⁻¹ • v) k0
    simpa only [smul_smul, inv_mul_cancel₀ hd0, one_smul] using this
  · intro i a b c d ha hb hc hd' hxa hxb
    obtain ⟨hi, ha'⟩ := List.getElem?_eq_some_iff.mp ha
    obtain ⟨hi1, hb'⟩ := List.getElem?_eq_some_iff.mp hb
    obtain ⟨_, hc'⟩ := List.getElem?_eq_some_iff.mp hc
    obtain ⟨_, hd''⟩ := List.getElem?_eq_some_iff.mp hd'
    have hpx : p = x := by
      rw [hx]; unfold clamp
      have h1 := h.le (show 0 ≤ i by omega) hi
      have h2 := h.le (show i + 1 ≤ xp.length - 1 by omega) (by omega)
      rw [ha'] at h1
      rw [hb'] at h2
      rw [min_eq_left (le_trans hxb h2), max_eq_right (le_trans h1 hxa)]
    have := key i hi1 (by rw [hpx, ha']; exact hxa) (by rw [hpx, hb']; exact hxb)
    rw [hpx, ha', hb', hc', hd''] at this
    exact this

/-- `interp_factor` on any strictly increasing, non-empty table -/
theorem interpFactor_any (xp : List K) (h : Inc xp) (hn : 0 < xp.length) (x : K) :
    ∃ (j : ℕ) (f : K), interpFactor xp 1 x = some (j, f) ∧ j < xp.length ∧ low j < xp.length ∧ 0 ≤ f ∧
      f ≤ 1 ∧ interpFactor xp 1 (clamp (xp[0]'hn) (xp[xp.length - 1]'(by omega)) x) = some (j, f) ∧
      ∀ (yp : List V) (a b : V), yp.length = xp.length → yp[low j]? = some a → yp[j]? = some b →
        IsInterp xp yp x (lerp a b f) := by
  by_cases h1 : xp.length = 1
  · refine ⟨0, 0, by simp [interpFactor, h1], by omega, by simp [low]; omega, le_refl _, zero_le_one,
      by simp [interpFactor, h1], ?_⟩
    intro yp a b hl ha hb
    obtain ⟨c, rfl⟩ := List.length_eq_one_iff.mp (hl.trans h1)
    obtain ⟨d, rfl⟩ := List.length_eq_one_iff.mp h1
    simp [low] at ha hb
    subst ha hb
    have hc : lerp c c (0 : K) = c := by unfold lerp; module
    rw [hc]
    refine ⟨?_, ?_, ?_⟩
    · intro a' b' _ h _; simpa using h
    · intro a' b' _ h _; simpa using h
    · intro i _ b' _ _ _ h; simp at h
  · obtain ⟨j, f, hj, e, hj1, hf0, hf1, hx⟩ := interpFactor_one xp h (by omega) x
    have hlow : low j = j - 1 := by unfold low; rw [if_pos (by omega)]
    refine ⟨j, f, e, hj, by omega, hf0, hf1, ?_, ?_⟩
    · -- the factor at the clamped point
      have h01 : xp[0] ≤ xp[xp.length - 1]'(by omega) := h.le (by omega) (by omega)
      have hs : (if 1 > xp.length - 1 then xp.length - 1 else 1) = 1 := by split <;> omega
      have hlast : xp.getLast? = some (xp[xp.length - 1]'(by omega)) := by
        rw [List.getLast?_eq_getElem?, List.getElem?_eq_getElem]
      have hunf : ∀ z : K, interpFactor xp 1 z = if z ≤ xp[0] then some (1, 0) else
          if xp[xp.length - 1]'(by omega) ≤ z then some (xp.length - 1, 1) else
          factorLoop xp z 1 (xp.length - 1) := by
        intro z
        unfold interpFactor
        rw [if_neg h1, if_neg (by omega)]
        simp only [one_ne_zero, if_false, hs, Nat.sub_self, hlast, List.getElem?_eq_getElem hn,
          Option.bind_eq_bind, Option.bind_some, Option.pure_def]
      rw [← e, hunf, hunf]
      unfold clamp
      by_cases c1 : x ≤ xp[0]
      · rw [min_eq_left (le_trans c1 h01), max_eq_left c1]
        simp [c1]
      · push Not at c1
        by_cases c2 : xp[xp.length - 1]'(by omega) ≤ x
        · rw [min_eq_right c2, max_eq_right h01]
          have h01' : xp[0] < xp[xp.length - 1]'(by omega) := h.lt (by omega) (by omega)
          rw [if_neg (not_le.mpr h01'), if_pos (le_refl _), if_neg (not_le.mpr c1), if_pos c2]
        · push Not at c2
          rw [min_eq_left (le_of_lt c2), max_eq_right (le_of_lt c1)]
    · intro yp a b hl ha hb
      rw [hlow, List.getElem?_eq_getElem (by omega)] at ha
      rw [List.getElem?_eq_getElem (by omega)] at hb
      simp only [Option.some.injEq] at ha hb
      have := chord_value xp yp h hl j f hj hj1 hf0 hf1 x hx
      rw [ha, hb] at this
      have e2 : lerp a b f = a + f • (b - a) := by unfold lerp; module
      rw [e2]; exact this

/-- the interpolant is unique -/
theorem IsInterp.unique (xp : List K) (yp : List V) (h : Inc xp) (hn : 0 < xp.length)
    (hl : yp.length = xp.length) (x : K) (y y' : V) (h1 : IsInterp xp yp x y)
    (h2 : IsInterp xp yp x y') : y = y' := by
  by_cases c1 : x ≤ xp[0]
  · have e1 : xp.head? = some xp[0] := by rw [List.head?_eq_getElem?, List.getElem?_eq_getElem hn]
    have e2 : yp.head? = some (yp[0]'(by omega)) := by
      rw [List.head?_eq_getElem?, List.getElem?_eq_getElem (by omega)]
    rw [h1.below _ _ e1 e2 c1, h2.below _ _ e1 e2 c1]
  · push Not at c1
    have : ∀ n (hn : n < xp.length), x ≤ xp[n] → y = y' := by
      intro n
      induction n with
      | zero => intro hn h; exact absurd h (not_le.mpr c1)
      | succ n ih =>
        intro hn hx
        by_cases hx2 : x ≤ xp[n]
        · exact ih (by omega) hx2
        · push Not at hx2
          have a1 := h1.chord n _ _ _ _ (List.getElem?_eq_getElem (by omega))
              (List.getElem?_eq_getElem hn) (List.getElem?_eq_getElem (by omega))
              (List.getElem?_eq_getElem (by omega)) (le_of_lt hx2) hx
          have a2 := h2.chord n _ _ _ _ (List.getElem?_eq_getElem (by omega))
              (List.getElem?_eq_getElem hn) (List.getElem?_eq_getElem (by omega))
              (List.getElem?_eq_getElem (by omega)) (le_of_lt hx2) hx
          have hd : xp[n + 1] - xp[n] ≠ 0 := by
            have := h.lt (show n < n + 1 by omega) hn
            intro h0; linarith
          have := congrArg (fun v => (xp[n + 1] - xp[n])⁻¹ • v) (a1.trans a2.symm)
          simpa only [smul_smul, inv_mul_cancel₀ hd, one_smul] using this
    by_cases hlx : x ≤ xp[xp.length - 1]'(by omega)
    · exact this _ _ hlx
    · push Not at hlx
      have e1 : xp.getLast? = some (xp[xp.length - 1]'(by omega)) := by
        rw [List.getLast?_eq_getElem?, List.getElem?_eq_getElem]
      have e2 : yp.getLast? = some (yp[yp.length - 1]'(by omega)) := by
        rw [List.getLast?_eq_getElem?, List.getElem?_eq_getElem]
      rw [h1.above _ _ e1 e2 (le_of_lt hlx), h2.above _ _ e1 e2 (le_of_lt hlx)]

end MD.Interp
