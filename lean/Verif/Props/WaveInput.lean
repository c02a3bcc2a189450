import Verif.Lemmas.Waves
import Verif.Model.WaveNumber
import Mathlib.Data.Rat.Floor
import Mathlib.Analysis.Complex.ExponentialBounds
import Mathlib.Tactic.NormNum
import Mathlib.Tactic.Positivity

/-!
# Properties C58, C59, C60, C61: reading of water kinematics
-/

set_option linter.unusedSimpArgs false
set_option linter.unusedSectionVars false

namespace MD.Waves

open MD.Interp

variable {K V : Type} [Field K] [LinearOrder K] [IsStrictOrderedRing K] [AddCommGroup V] [Module K V]

/-! ## C58: resampling of the spectrum -/

/-- `d` is the smallest of the differences of consecutive elements. -/
def IsMinDiff (l : List K) (d : K) : Prop :=
  (∃ (i : ℕ) (a b : K), l[i]? = some a ∧ l[i + 1]? = some b ∧ b - a = d) ∧
  ∀ (i : ℕ) (a b : K), l[i]? = some a → l[i + 1]? = some b → d ≤ b - a

theorem minDiff_spec (a b : K) (l : List K) : ∃ d, minDiff (a :: b :: l) = some d ∧ IsMinDiff (a :: b :: l) d := by
  induction l generalizing a b with
  | nil =>
    refine ⟨b - a, rfl, ⟨0, a, b, rfl, rfl, rfl⟩, ?_⟩
    intro i x y hx hy
    cases i with
    | zero => simp at hx hy; subst hx hy; exact le_refl _
    | succ i => simp at hy
  | cons c l ih =>
    obtain ⟨d, h1, ⟨i, x, y, hx, hy, hd⟩, h3⟩ := ih b c
    refine ⟨min (b - a) d, by simp [minDiff, minDiff, h1] at h1 ⊢; rw [h1], ?_, ?_⟩
    · rcases le_total (b - a) d with h | h
      · exact ⟨0, a, b, rfl, rfl, (min_eq_left h).symm⟩
      · exact ⟨i + 1, x, y, by simpa using hx, by simpa using hy, by rw [hd, min_eq_right h]⟩
    · intro i x y hx hy
      cases i with
      | zero => simp at hx hy; subst hx hy; exact min_le_left _ _
      | succ i => exact le_trans (min_le_right _ _) (h3 i x y (by simpa using hx) (by simpa using hy))

theorem IsMinDiff.pos_iff (l : List K) (d : K) (h : IsMinDiff l d) : 0 < d ↔ l.Pairwise (· < ·) := by
  constructor
  · intro hd
    rw [← List.isChain_iff_pairwise, List.isChain_iff_getElem]
    intro i hi
    have := h.2 i l[i] l[i + 1] (List.getElem?_eq_getElem _) (List.getElem?_eq_getElem _)
    linarith
  · intro hp
    obtain ⟨i, a, b, ha, hb, rfl⟩ := h.1
    obtain ⟨h1, rfl⟩ := List.getElem?_eq_some_iff.mp ha
    obtain ⟨h2, rfl⟩ := List.getElem?_eq_some_iff.mp hb
    have := List.pairwise_iff_getElem.mp hp i (i + 1) h1 h2 (by omega)
    linarith

theorem resampleLoop_spec (om : List K) (amps : List V) (betas : List K) (hinc : Inc om)
    (hn : 2 ≤ om.length) (ha : amps.length = om.length) (hb : betas.length = om.length) (dw : K)
    (hdw : 0 < dw) (is : List ℕ) (his : is.Pairwise (· < ·)) (j : ℕ)
    (hj0 : startIdx om.length j = 1 ∨ ∃ (hs : startIdx om.length j - 1 < om.length),
      ∀ i ∈ is, om[startIdx om.length j - 1] ≤ (i : K) * dw) :
    ∃ l, resampleLoop om amps betas dw j is = some l ∧ l.length = is.length ∧
      ∀ (n i : ℕ) (c : Comp K V), is[n]? = some i → l[n]? = some c →
        c.omega = (i : K) * dw ∧ IsInterp om amps ((i : K) * dw) c.amp ∧
        IsInterp om betas ((i : K) * dw) c.beta := by
  induction is generalizing j with
  | nil => exact ⟨[], rfl, rfl, by simp⟩
  | cons i is ih =>
    obtain ⟨j1, f, hj, e, hj1, hf0, hf1, hx⟩ := interpFactor_spec om hinc hn j ((i : K) * dw) (by
      rcases hj0 with h | ⟨hs, h⟩
      · exact Or.inl h
      · exact Or.inr ⟨hs, h i (by simp)⟩)
    rw [List.pairwise_cons] at his
    have hst : startIdx om.length j1 = j1 := by
      unfold startIdx; simp only; split <;> split <;> omega
    obtain ⟨l, el, hl, hi⟩ := ih his.2 j1 (by
      by_cases h1 : j1 = 1
      · left; rw [hst, h1]
      · right
        refine ⟨by omega, ?_⟩
        intro i' hi'
        simp only [hst]
        have hpos : om[j1 - 1]'(by omega) ≤
            clamp (om[0]'(by omega)) (om[om.length - 1]'(by omega)) ((i : K) * dw) := by
          rw [← hx]
          have := Inc.lt hinc (show j1 - 1 < j1 by omega) hj
          nlinarith
        have h0 : om[0]'(by omega) < om[j1 - 1]'(by omega) := Inc.lt hinc (by omega) (by omega)
        have h2 : om[j1 - 1]'(by omega) ≤ (i : K) * dw := by
          unfold clamp at hpos
          rcases le_max_iff.mp hpos with h | h
          · exact absurd h (not_le.mpr h0)
          · exact le_trans h (min_le_left _ _)
        have h3 : (i : K) ≤ (i' : K) := by exact_mod_cast (his.1 i' hi').le
        exact le_trans h2 (mul_le_mul_of_nonneg_right h3 hdw.le))
    have lv : ∀ {W : Type} [AddCommGroup W] [Module K W] (a b : W), lerp a b f = a + f • (b - a) := by
      intro W _ _ a b; simp only [lerp]; module
    refine ⟨⟨(i : K) * dw, lerp (amps[j1 - 1]'(by omega)) (amps[j1]'(by omega)) f,
      (1 - f) * betas[j1 - 1]'(by omega) + f * betas[j1]'(by omega)⟩ :: l, ?_, by simp [hl], ?_⟩
    · simp only [resampleLoop, e, Option.bind_eq_bind, Option.bind_some, Option.pure_def]
      rw [if_neg (by omega), List.getElem?_eq_getElem (by omega), List.getElem?_eq_getElem (by omega),
        List.getElem?_eq_getElem (by omega), List.getElem?_eq_getElem (by omega)]
      simp only [Option.bind_some, el]
    · intro n i' c hi' hc
      cases n with
      | zero =>
        simp only [List.getElem?_cons_zero, Option.some.injEq] at hi' hc
        subst hi' hc
        refine ⟨rfl, ?_, ?_⟩
        · rw [lv]
          exact chord_value om amps hinc ha j1 f hj hj1 hf0 hf1 _ hx
        · have := chord_value om betas hinc hb j1 f hj hj1 hf0 hf1 _ hx
          convert this using 1
          simp only [smul_eq_mul]; ring
      | succ n =>
        simp only [List.getElem?_cons_succ] at hi' hc
        exact hi n i' c hi' hc

/-- **C58.** For every list of two components or more: if the frequencies are not ascending
the spectrum is rejected; otherwise, if the last one is not negative, the components are
those at `0, dw, ..., N dw` with `dw` the smallest spacing and `N dw` the last multiple in
the range, they are the linear interpolation of the given ones, and each given component at
a multiple of the spacing is returned unchanged. -/
theorem C58_resample [FloorSemiring K] (cs : List (Comp K V)) (hn : 2 ≤ cs.length) :
    (¬ (cs.map (·.omega)).Pairwise (· < ·) → resample cs = .rejected) ∧
    ((cs.map (·.omega)).Pairwise (· < ·) → ∀ w, (cs.map (·.omega)).getLast? = some w → 0 ≤ w →
      ∃ (dw : K) (N : ℕ) (l : List (Comp K V)), IsMinDiff (cs.map (·.omega)) dw ∧ 0 < dw ∧
        (N : K) * dw ≤ w ∧ w < ((N : K) + 1) * dw ∧ resample cs = .ok l ∧ l.length = N + 1 ∧
        (∀ (i : ℕ) (c : Comp K V), l[i]? = some c → c.omega = (i : K) * dw ∧
          IsInterp (cs.map (·.omega)) (cs.map (·.amp)) c.omega c.amp ∧
          IsInterp (cs.map (·.omega)) (cs.map (·.beta)) c.omega c.beta) ∧
        (∀ (i : ℕ) (c : Comp K V), c ∈ cs → c.omega = (i : K) * dw → l[i]? = some c)) := by
  obtain ⟨a, b, t, rfl⟩ : ∃ a b t, cs = a :: b :: t := by
    rcases cs with _ | ⟨a, _ | ⟨b, t⟩⟩
    · simp at hn
    · simp at hn
    · exact ⟨a, b, t, rfl⟩
  generalize hcs : a :: b :: t = cs at *
  obtain ⟨dw, hd, hmin⟩ := minDiff_spec a.omega b.omega (t.map (·.omega))
  have hm : cs.map (·.omega) = a.omega :: b.omega :: t.map (·.omega) := by rw [← hcs]; rfl
  rw [← hm] at hd hmin
  obtain ⟨w, hw⟩ : ∃ w, (cs.map (·.omega)).getLast? = some w := by
    rw [List.getLast?_eq_getElem?]
    exact ⟨_, List.getElem?_eq_getElem (by rw [List.length_map]; omega)⟩
  constructor
  · intro hp
    unfold resample
    rw [hd, hw]
    simp only
    rw [if_pos (not_lt.mp (mt (hmin.pos_iff _ _).mp hp))]
  · intro hp w' hw' h0
    rw [hw] at hw'
    obtain rfl := Option.some.inj hw'
    have hdw := (hmin.pos_iff _ _).mpr hp
    have hq : 0 ≤ w / dw := div_nonneg h0 hdw.le
    have hlen : (cs.map (·.omega)).length = cs.length := List.length_map _
    obtain ⟨l, el, hl, hi⟩ := resampleLoop_spec (cs.map (·.omega)) (cs.map (·.amp)) (cs.map (·.beta)) hp
      (by rw [hlen]; exact hn) (by simp) (by simp) dw hdw (List.range (⌊w / dw⌋₊ + 1)) List.pairwise_lt_range 1
      (by left; unfold startIdx; simp only; split <;> split <;> omega)
    have h3 : (⌊w / dw⌋₊ : K) * dw ≤ w := by
      have := Nat.floor_le hq
      rwa [le_div_iff₀ hdw] at this
    have h4 : w < ((⌊w / dw⌋₊ : K) + 1) * dw := by
      have := Nat.lt_floor_add_one (w / dw)
      rwa [div_lt_iff₀ hdw] at this
    have hlr : l.length = ⌊w / dw⌋₊ + 1 := by rw [hl, List.length_range]
    have hvals : ∀ (i : ℕ) (c : Comp K V), l[i]? = some c → c.omega = (i : K) * dw ∧
          IsInterp (cs.map (·.omega)) (cs.map (·.amp)) c.omega c.amp ∧
          IsInterp (cs.map (·.omega)) (cs.map (·.beta)) c.omega c.beta := by
      intro i c hc
      have hil : i < ⌊w / dw⌋₊ + 1 := by rw [← hlr]; exact (List.getElem?_eq_some_iff.mp hc).1
      obtain ⟨q1, q2, q3⟩ := hi i i c (by simp [hil]) hc
      exact ⟨q1, by rw [q1]; exact q2, by rw [q1]; exact q3⟩
    refine ⟨dw, ⌊w / dw⌋₊, l, hmin, hdw, h3, h4, ?_, hlr, hvals, ?_⟩
    · unfold resample
      rw [hd, hw]
      simp only
      rw [if_neg (not_le.mpr hdw), if_neg (not_lt.mpr hq), el]
    · intro i c hc hio
      obtain ⟨n, hnl, rfl⟩ := List.getElem_of_mem hc
      -- a given frequency does not exceed the last
      have hle : cs[n].omega ≤ w := by
        have e : w = (cs.map (·.omega))[cs.length - 1]'(by rw [hlen]; omega) := by
          rw [List.getLast?_eq_getElem?, hlen, List.getElem?_eq_getElem (by rw [hlen]; omega)] at hw
          exact (Option.some.inj hw).symm
        rw [e]
        have := Inc.le hp (show n ≤ cs.length - 1 by omega) (by rw [hlen]; omega)
        simpa using this
      have hil : i < ⌊w / dw⌋₊ + 1 := by
        have : (i : K) ≤ w / dw := by rw [le_div_iff₀ hdw, ← hio]; exact hle
        have := Nat.le_floor this
        omega
      have hgi : l[i]? = some (l[i]'(by omega)) := List.getElem?_eq_getElem (by omega)
      obtain ⟨q1, q2, q3⟩ := hvals i _ hgi
      have uniq : ∀ {W : Type} [AddCommGroup W] [Module K W] (f : Comp K V → W) (v : W),
          IsInterp (cs.map (·.omega)) (cs.map f) cs[n].omega v → v = f cs[n] := by
        intro W _ _ f v hv
        rcases Nat.lt_or_ge (n + 1) cs.length with hlt | hge
        · have := hv.chord n cs[n].omega cs[n + 1].omega (f cs[n]) (f cs[n + 1]) (by simp [hnl]) (by simp [hlt])
            (by simp [hnl]) (by simp [hlt]) (le_refl _)
            (by have := Inc.le hp (show n ≤ n + 1 by omega) (by rw [hlen]; exact hlt); simpa using this)
          have hpos : 0 < cs[n + 1].omega - cs[n].omega := by
            have := Inc.lt hp (show n < n + 1 by omega) (by rw [hlen]; exact hlt)
            simp only [List.getElem_map] at this
            linarith
          rw [sub_self, zero_smul, add_zero] at this
          exact smul_right_injective _ hpos.ne' this
        · have : n = cs.length - 1 := by omega
          subst this
          exact hv.above cs[cs.length - 1].omega _ (by
            rw [List.getLast?_eq_getElem?, hlen]; simp [hnl]) (by
            rw [List.getLast?_eq_getElem?, List.length_map]; simp [hnl]) (le_refl _)
      have heq : (l[i]'(by omega)).omega = cs[n].omega := by rw [q1, hio]
      rw [heq] at q2 q3
      rw [hgi, Option.some.injEq]
      have u1 := uniq (·.amp) _ q2
      have u2 := uniq (·.beta) _ q3
      cases h : l[i]'(by omega) with
      | mk o am be =>
        rw [h] at heq u1 u2
        simp only at heq u1 u2
        cases h' : cs[n] with
        | mk o' am' be' =>
          rw [h'] at heq u1 u2
          simp only at heq u1 u2
          rw [heq, u1, u2]

/-- Spectra whose frequencies are all negative make a negative number be converted to
unsigned. -/
theorem C58_negative [FloorSemiring K] (cs : List (Comp K V)) (hn : 2 ≤ cs.length) (w : K)
    (hp : (cs.map (·.omega)).Pairwise (· < ·)) (hw : (cs.map (·.omega)).getLast? = some w) (h0 : w < 0) :
    resample cs = .undefined := by
  obtain ⟨a, b, t, rfl⟩ : ∃ a b t, cs = a :: b :: t := by
    rcases cs with _ | ⟨a, _ | ⟨b, t⟩⟩
    · simp at hn
    · simp at hn
    · exact ⟨a, b, t, rfl⟩
  obtain ⟨dw, hd, hmin⟩ := minDiff_spec a.omega b.omega (t.map (·.omega))
  have hdw := (hmin.pos_iff _ _).mpr (by simpa using hp)
  unfold resample
  rw [hw, show (a :: b :: t).map (·.omega) = a.omega :: b.omega :: t.map (·.omega) from rfl, hd]
  simp only
  rw [if_neg (not_le.mpr hdw), if_pos (div_neg_of_neg_of_pos h0 hdw)]

/-- Frequencies 0, 1 and 3: the result has 0, 1, 2 and 3. -/
example : (match resample (K := ℚ) (V := ℚ) [⟨0, 0, 0⟩, ⟨1, 4, 1⟩, ⟨3, 8, 2⟩] with
    | .ok l => l.map (fun c => (c.omega, c.amp, c.beta))
    | _ => []) = [(0, 0, 0), (1, 4, 1), (2, 6, 3/2), (3, 8, 2)] := by decide +kernel

/-! ## C59: grid axes -/

/-- **C59.** For two or more coordinates the axis has exactly that number of coordinates,
equally spaced from first to last; they increase if `first < last`. -/
theorem C59_lattice_partial (first last : K) (n : ℕ) (hn : 2 ≤ n) :
    (lattice first last n).length = n ∧
    (∀ (i : ℕ) (x : K), (lattice first last n)[i]? = some x →
      x = first + (i : K) * ((last - first) / ((n : K) - 1))) ∧
    (lattice first last n)[0]? = some first ∧ (lattice first last n)[n - 1]? = some last ∧
    (first < last → (lattice first last n).Pairwise (· < ·)) := by
  have hm : (if n = 0 then 2 ^ 32 - 1 else n - 1) = n - 1 := by rw [if_neg (by omega)]
  have hc : ((n - 1 : ℕ) : K) = (n : K) - 1 := by rw [Nat.cast_sub (by omega)]; simp
  have hne : (n : K) - 1 ≠ 0 := by
    rw [← hc]; exact_mod_cast (by omega : n - 1 ≠ 0)
  have hlen : (lattice first last n).length = n := by
    unfold lattice; simp only [hm, List.length_cons, List.length_append, List.length_map, List.length_range',
      List.length_nil]; omega
  have hval : ∀ (i : ℕ) (x : K), (lattice first last n)[i]? = some x →
      x = first + (i : K) * ((last - first) / ((n : K) - 1)) := by
    intro i x hx
    unfold lattice at hx
    simp only [hm, hc] at hx
    cases i with
    | zero => simp at hx; simp [hx]
    | succ i =>
      rw [List.getElem?_cons_succ] at hx
      rcases Nat.lt_or_ge i (n - 1 - 1) with h | h
      · rw [List.getElem?_append_left (by simpa using h), List.getElem?_map,
          List.getElem?_range' h] at hx
        simp only [Option.map_some, Option.some.injEq] at hx
        rw [← hx]; push_cast; ring
      · rw [List.getElem?_append_right (by simpa using h)] at hx
        have hi : i = n - 1 - 1 := by
          have := (List.getElem?_eq_some_iff.mp hx).1
          simp at this
          omega
        subst hi
        simp at hx
        subst hx
        rw [show n - 1 - 1 + 1 = n - 1 by omega, hc]
        field_simp; ring
  refine ⟨hlen, hval, rfl, ?_, ?_⟩
  · rw [List.getElem?_eq_getElem (by omega), Option.some.injEq]
    have := hval (n - 1) _ (List.getElem?_eq_getElem (by omega))
    rw [this, hc]; field_simp; ring
  · intro hlt
    rw [List.pairwise_iff_getElem]
    intro i j hi hj hij
    rw [hval i _ (List.getElem?_eq_getElem hi), hval j _ (List.getElem?_eq_getElem hj)]
    have hd : 0 < (last - first) / ((n : K) - 1) := by
      apply div_pos (by linarith)
      rw [← hc]; exact_mod_cast (by omega : 0 < n - 1)
    have : (i : K) < (j : K) := by exact_mod_cast hij
    nlinarith

/-- **C59, false for one coordinate:** two are created. -/
theorem C59_one_false (first last : K) : lattice first last 1 = [first, last] := by
  simp [lattice]

/-- **C59, false for no coordinates:** 2^32 are created. -/
theorem C59_zero_false (first last : K) : (lattice first last 0).length = 2 ^ 32 := by
  unfold lattice
  simp only [List.length_cons, List.length_append, List.length_map, List.length_range', List.length_nil]
  norm_num

example : lattice (0 : ℚ) 3 4 = [0, 1, 2, 3] := by decide +kernel

/-! ## C60: gridded current files -/

theorem foldl_setRow {S : Type} [DecidableEq S] (xs ys zs ts : List S) (rows : List (Row4 S V))
    (g : Grid4 V) (i j k w : ℕ) :
    (∀ r ∈ rows, ¬ (i = axisIndex xs r.x ∧ j = axisIndex ys r.y ∧ k = axisIndex zs r.z ∧
      w = axisIndex ts r.t)) → rows.foldl (setRow xs ys zs ts) g i j k w = g i j k w := by
  induction rows generalizing g with
  | nil => intro _; rfl
  | cons r rows ih =>
    intro h
    rw [List.foldl_cons, ih _ (fun r' hr' => h r' (List.mem_cons_of_mem _ hr'))]
    unfold setRow
    rw [if_neg (h r (by simp))]

/-- **C60.** In an accepted file with distinct ticks in each axis and no grid point given
twice, every row but the first, with coordinates in the axes, sets the current at its
grid coordinates. -/
theorem C60_rows_partial {S : Type} [DecidableEq S] (xs ys zs ts : List S) (r0 : Row4 S V)
    (rows : List (Row4 S V)) (g : Grid4 V) (hg : load4D xs ys zs ts (r0 :: rows) = some g)
    (hx : xs.Nodup) (hy : ys.Nodup) (hz : zs.Nodup) (ht : ts.Nodup)
    (hin : ∀ r ∈ rows, r.x ∈ xs ∧ r.y ∈ ys ∧ r.z ∈ zs ∧ r.t ∈ ts)
    (hdis : rows.Pairwise fun a b => ¬ (a.x = b.x ∧ a.y = b.y ∧ a.z = b.z ∧ a.t = b.t))
    (r : Row4 S V) (hr : r ∈ rows) (i j k w : ℕ) (hi : xs[i]? = some r.x) (hj : ys[j]? = some r.y)
    (hk : zs[k]? = some r.z) (hw : ts[w]? = some r.t) : g i j k w = r.u := by
  unfold load4D at hg
  split at hg
  · simp at hg
  split at hg
  · simp at hg
  simp only [List.drop_succ_cons, List.drop_zero, Option.some.injEq] at hg
  subst hg
  obtain ⟨l1, l2, rfl⟩ := List.append_of_mem hr
  rw [List.foldl_append, List.foldl_cons, foldl_setRow]
  · unfold setRow
    rw [if_pos ⟨(axisIndex_eq _ _ hx _ hi).symm, (axisIndex_eq _ _ hy _ hj).symm,
      (axisIndex_eq _ _ hz _ hk).symm, (axisIndex_eq _ _ ht _ hw).symm⟩]
  · rintro r' hr' ⟨e1, e2, e3, e4⟩
    have hm := hin r' (by simp [hr'])
    have inj : ∀ (l : List S) (s : S) (n : ℕ) (s' : S), l.Nodup → l[n]? = some s → s' ∈ l →
        n = axisIndex l s' → s = s' := by
      intro l s n s' hnd hn hs' hax
      obtain ⟨m, hm, rfl⟩ := List.getElem_of_mem hs'
      rw [axisIndex_eq l _ hnd m (List.getElem?_eq_getElem hm)] at hax
      subst hax
      rw [List.getElem?_eq_getElem hm] at hn
      exact (Option.some.inj hn).symm
    have h2 := (List.pairwise_append.mp hdis).2.1
    exact (List.pairwise_cons.mp h2).1 r' hr' ⟨inj _ _ _ _ hx hi hm.1 e1, inj _ _ _ _ hy hj hm.2.1 e2,
      inj _ _ _ _ hz hk hm.2.2.1 e3, inj _ _ _ _ ht hw hm.2.2.2 e4⟩

/-- **C60, the first row is ignored: false for every file.** In any accepted file in which
each grid point is given once, the current at the coordinates of the first row is zero,
whatever the row says. -/
theorem C60_first_row_ignored_false {S : Type} [DecidableEq S] (xs ys zs ts : List S) (r0 : Row4 S V)
    (rows : List (Row4 S V)) (g : Grid4 V) (hg : load4D xs ys zs ts (r0 :: rows) = some g)
    (hx : xs.Nodup) (hy : ys.Nodup) (hz : zs.Nodup) (ht : ts.Nodup)
    (hin : ∀ r ∈ rows, r.x ∈ xs ∧ r.y ∈ ys ∧ r.z ∈ zs ∧ r.t ∈ ts)
    (hdis : ∀ b ∈ rows, ¬ (r0.x = b.x ∧ r0.y = b.y ∧ r0.z = b.z ∧ r0.t = b.t))
    (i j k w : ℕ) (hi : xs[i]? = some r0.x) (hj : ys[j]? = some r0.y)
    (hk : zs[k]? = some r0.z) (hw : ts[w]? = some r0.t) : g i j k w = 0 := by
  unfold load4D at hg
  split at hg
  · simp at hg
  split at hg
  · simp at hg
  simp only [List.drop_succ_cons, List.drop_zero, Option.some.injEq] at hg
  subst hg
  rw [foldl_setRow]
  rintro r' hr' ⟨e1, e2, e3, e4⟩
  have hm := hin r' hr'
  have inj : ∀ (l : List S) (s : S) (n : ℕ) (s' : S), l.Nodup → l[n]? = some s → s' ∈ l →
      n = axisIndex l s' → s = s' := by
    intro l s n s' hnd hn hs' hax
    obtain ⟨m, hm, rfl⟩ := List.getElem_of_mem hs'
    rw [axisIndex_eq l _ hnd m (List.getElem?_eq_getElem hm)] at hax
    subst hax
    rw [List.getElem?_eq_getElem hm] at hn
    exact (Option.some.inj hn).symm
  exact hdis r' hr' ⟨inj _ _ _ _ hx hi hm.1 e1, inj _ _ _ _ hy hj hm.2.1 e2,
    inj _ _ _ _ hz hk hm.2.2.1 e3, inj _ _ _ _ ht hw hm.2.2.2 e4⟩

/-- A row whose coordinates are not ticks is accepted and overwrites the first grid point. -/
theorem C60_unknown_coordinates_false :
    (load4D (V := ℚ) ["0"] ["0"] ["0"] ["0"] [⟨"0", "0", "0", "0", 1⟩, ⟨"7", "0", "0", "0", 9⟩]).map
      (fun g => g 0 0 0 0) = some 9 := by decide +kernel

/-- two samples in time: the first is lost -/
example : (load4D (V := ℚ) ["0"] ["0"] ["0"] ["0", "1"] [⟨"0", "0", "0", "0", 5⟩, ⟨"0", "0", "0", "1", 9⟩]).map
      (fun g => (g 0 0 0 0, g 0 0 0 1)) = some (0, 9) := by decide +kernel

/-! ## C61: wave number -/

open Real

theorem exp_neg_four : exp (-4) < 0.02 := by
  have h := Real.exp_one_gt_d9
  have : exp (-4) = (exp 1)⁻¹ ^ 4 := by
    rw [← Real.exp_neg, ← Real.exp_nat_mul]; norm_num
  rw [this, inv_pow]
  rw [inv_lt_comm₀ (by positivity) (by norm_num)]
  have h2 : (2.7 : ℝ) ^ 4 < exp 1 ^ 4 := by
    apply pow_lt_pow_left₀ (by linarith) (by norm_num) (by norm_num)
  norm_num at h2 ⊢
  linarith

/-- the first guess is larger than `C`, and its square by not more than `C` -/
theorem guess_bounds (C : ℝ) (h : 0 < C) (h48 : C ≤ 4.8) :
    C < guess C ∧ guess C * guess C - C * C ≤ C ∧ C ≤ guess C * guess C := by
  unfold guess
  by_cases h2 : C ≤ 2
  · rw [if_pos h2]
    have hs := Real.sqrt_nonneg C
    have hss := Real.mul_self_sqrt h.le
    set s := sqrt C with hsd
    have hpos : 0 < s := Real.sqrt_pos.mpr h
    have hs2 : s < 1.42 := by nlinarith
    have hsC : C = s * s := hss.symm
    have hp : s < 1 + C * (0.169 + 0.031 * C) := by
      rw [hsC]
      nlinarith [sq_nonneg (s - 1.4), sq_nonneg (s * s - 2), mul_pos hpos hpos, sq_nonneg (s - 1)]
    have hsq : s * (1 + C * (0.169 + 0.031 * C)) * (s * (1 + C * (0.169 + 0.031 * C))) =
        C * (1 + C * (0.169 + 0.031 * C)) ^ 2 := by rw [← hss]; ring
    refine ⟨by nlinarith, ?_, ?_⟩
    · rw [hsq]
      have : (1 + C * (0.169 + 0.031 * C)) ^ 2 ≤ 1 + C := by
        have h3 : 1 + C * (0.169 + 0.031 * C) ≤ 1 + 0.231 * C := by nlinarith
        have h4 : 0 ≤ 1 + C * (0.169 + 0.031 * C) := by positivity
        nlinarith
      nlinarith
    · rw [hsq]
      have : 1 ≤ (1 + C * (0.169 + 0.031 * C)) ^ 2 := by
        have : 0 ≤ C * (0.169 + 0.031 * C) := by positivity
        nlinarith
      nlinarith
  · rw [if_neg h2]
    push Not at h2
    simp only
    have he0 := Real.exp_pos (-2 * C)
    have he1 : exp (-2 * C) < 0.02 := lt_trans (Real.exp_lt_exp.mpr (by linarith)) exp_neg_four
    set e := exp (-2 * C)
    set q := e * (2 - 12 * e) with hq
    have q0 : 0 < q := by rw [hq]; apply mul_pos he0; linarith
    have q1 : q < 0.04 := by rw [hq]; nlinarith
    refine ⟨by nlinarith, ?_, ?_⟩
    · have : C * (1 + q) * (C * (1 + q)) - C * C = C * (C * (2 * q + q * q)) := by ring
      rw [this]
      have : C * (2 * q + q * q) ≤ 1 := by nlinarith
      nlinarith
    · have : C * (1 + q) * (C * (1 + q)) = C * (C * (1 + q) ^ 2) := by ring
      rw [this]
      have : 1 ≤ C * (1 + q) ^ 2 := by nlinarith
      nlinarith

theorem refine_pos (C : ℝ) (h : 0 < C) : 0 < MD.Waves.refine C (guess C) := by
  unfold MD.Waves.refine
  by_cases h48 : C ≤ 4.8
  · rw [if_pos h48]
    simp only
    obtain ⟨g1, g2, g3⟩ := guess_bounds C h h48
    set X := guess C
    have hX : 0 < X := by linarith
    set D := X * X - C * C with hD
    have hD0 : 0 < D := by rw [hD]; nlinarith
    have hC2 : C * C - X * X = -D := by rw [hD]; ring
    rw [hC2]
    have hCD : C - -D = C + D := by ring
    rw [hCD]
    set y := 0.5 * log ((X + C) / (X - C)) with hy
    have hA : 0 < C + D := by linarith
    -- complete the square in B
    set A := 1 / (C + D) with hAd
    have hA0 : 0 < A := by positivity
    set B := A * (y - X)
    have key : X - B * -D * (1 + A * B * C * X) = X + D * (B + A * C * X * B ^ 2) := by ring
    rw [key]
    have hacx : 0 < A * C * X := by positivity
    have hmin : -(1 / (4 * (A * C * X))) ≤ B + A * C * X * B ^ 2 := by
      have : B + A * C * X * B ^ 2 + 1 / (4 * (A * C * X)) = A * C * X * (B + 1 / (2 * (A * C * X))) ^ 2 := by
        field_simp; ring
      have h2 : 0 ≤ A * C * X * (B + 1 / (2 * (A * C * X))) ^ 2 := by positivity
      linarith
    have hval : 1 / (4 * (A * C * X)) = (C + D) / (4 * C * X) := by
      rw [hAd]; field_simp
    rw [hval] at hmin
    have h1 : D * ((C + D) / (4 * C * X)) < X := by
      rw [← mul_div_assoc, div_lt_iff₀ (by positivity)]
      have : D * (C + D) ≤ 2 * (C * C) := by nlinarith
      have : C * C ≤ C * (X * X) := by nlinarith
      nlinarith
    nlinarith
  · rw [if_neg h48]
    unfold guess
    push Not at h48
    rw [if_neg (by norm_num at h48 ⊢; linarith)]
    simp only
    have he0 := Real.exp_pos (-2 * C)
    have he1 : exp (-2 * C) < 0.02 :=
      lt_trans (Real.exp_lt_exp.mpr (by norm_num at h48 ⊢; linarith)) exp_neg_four
    have : 0 < exp (-2 * C) * (2 - 12 * exp (-2 * C)) := mul_pos he0 (by linarith)
    positivity

/-- **C61.** For every gravity and depth greater than zero: the wave number has the sign of
the frequency, and opposite frequencies have opposite wave numbers. -/
theorem C61_wave_number (g h : ℝ) (hg : 0 < g) (hh : 0 < h) (omega : ℝ) :
    (omega = 0 → waveNumber omega g h = 0) ∧ (0 < omega → 0 < waveNumber omega g h) ∧
    (omega < 0 → waveNumber omega g h < 0) ∧ waveNumber (-omega) g h = -waveNumber omega g h := by
  have pos : ∀ w : ℝ, w ≠ 0 → 0 < MD.Waves.refine (w * w * h / g) (guess (w * w * h / g)) / h := by
    intro w hw
    apply div_pos _ hh
    apply refine_pos
    have : 0 < w * w := mul_self_pos.mpr hw
    positivity
  refine ⟨?_, ?_, ?_, ?_⟩
  · rintro rfl; simp [waveNumber]
  · intro hp
    unfold waveNumber
    rw [if_neg hp.ne']
    simp only
    rw [if_neg (not_lt.mpr hp.le)]
    exact pos omega hp.ne'
  · intro hp
    unfold waveNumber
    rw [if_neg hp.ne]
    simp only
    rw [if_pos hp]
    have := pos omega hp.ne
    linarith
  · rcases lt_trichotomy omega 0 with hp | hp | hp
    · simp [waveNumber, hp, hp.ne, hp.le, not_lt.mpr (neg_nonneg.mpr hp.le)]
    · subst hp; simp [waveNumber]
    · simp [waveNumber, hp, hp.ne', hp.le, not_lt.mpr hp.le]

example : 0 < waveNumber 0.5 9.8 50 := (C61_wave_number 9.8 50 (by norm_num) (by norm_num) 0.5).2.1 (by norm_num)

end MD.Waves
