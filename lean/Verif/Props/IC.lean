import Mathlib.Tactic.Ring
import Mathlib.Tactic.Linarith
import Mathlib.Tactic.FieldSimp
import Mathlib.Tactic.NormNum
import Mathlib.Tactic.Positivity
import Mathlib.Data.Rat.Floor
import Mathlib.Algebra.Order.Archimedean.Basic
import Mathlib.Algebra.Order.Field.Basic
import Verif.Model.IC

/-!
# Initial conditions (C57, C71)
-/

set_option linter.unusedSimpArgs false
set_option linter.unusedVariables false
set_option linter.unusedSectionVars false

namespace MD.IC

variable {K σ ε : Type} [Field K] [LinearOrder K] [IsStrictOrderedRing K]

/-! ## C57 -/

theorem scale_scale (f g : K) (c : Coefs K) (h : f * g = 1) : (c.scale f).scale g = c := by
  have e : ∀ x : K, x * f * g = x := fun x => by rw [mul_assoc, h, mul_one]
  cases c with
  | mk l p r b =>
    simp only [Coefs.scale, List.map_map, Coefs.mk.injEq]
    refine ⟨?_, ?_, ?_, ?_⟩
    · conv_rhs => rw [← List.map_id l]
      exact List.map_congr_left fun x _ => by simp [e]
    · conv_rhs => rw [← List.map_id p]
      exact List.map_congr_left fun x _ => by simp [e]
    · conv_rhs => rw [← List.map_id r]
      exact List.map_congr_left fun x _ => by simp [e]
    · conv_rhs => rw [← List.map_id b]
      refine List.map_congr_left fun x _ => ?_
      simp only [Function.comp, List.map_map, id]
      conv_rhs => rw [← List.map_id x]
      exact List.map_congr_left fun y _ => by simp [e]

theorem icLegacy_ok (c : Conf K σ ε) (fuel : ℕ) (s s' : Sys K σ)
    (h : icLegacy c fuel s = some (.ok s')) :
    c.fac ≠ 0 ∧ s'.coefs = s.coefs ∧ s'.waveMode = s.waveMode ∧ s'.depth = s.depth ∧
    s'.icdt = s.icdt / 100 ∧ s'.time = 0 := by
  unfold icLegacy at h
  dsimp only at h
  split at h
  · exact absurd h (by simp)
  · exact absurd h (by simp)
  · split_ifs at h with hf
    · exact absurd h (by simp)
    · simp only [Option.some.injEq, Outcome.ok.injEq] at h
      subst h
      refine ⟨hf, ?_, rfl, rfl, ?_, rfl⟩
      · exact scale_scale _ _ _ (by field_simp)
      · simp only; ring

/-- **C57** (success). Whenever `MoorDyn_Init` succeeds, whatever the method and the factor
of drag, all drag coefficients and the depth are those given, the wave mode is the one of the
option, and the time is zero. -/
theorem C57_success_partial (c : Conf K σ ε) (fuel : ℕ) (dynamic skip : Bool) (s s' : Sys K σ)
    (h : init c fuel dynamic skip s = some (.ok s')) :
    s'.coefs = s.coefs ∧ s'.waveMode = c.waveKin ∧ s'.depth = s.depth ∧ s'.time = 0 := by
  unfold init at h
  split at h
  · exact absurd h (by simp)
  · exact absurd h (by simp)
  · exact absurd h (by simp)
  · next s1 hg =>
    have key : s1.coefs = s.coefs ∧ s1.depth = s.depth := by
      unfold generate at hg
      split_ifs at hg with h1 h2
      · simp only [Option.some.injEq, Outcome.ok.injEq] at hg
        subst hg; exact ⟨rfl, rfl⟩
      · obtain ⟨-, a, -, b, -⟩ := icLegacy_ok c fuel s s1 hg
        exact ⟨a, b⟩
      · split at hg
        · exact absurd hg (by simp)
        · simp only [Option.some.injEq, Outcome.ok.injEq] at hg
          subst hg; exact ⟨rfl, rfl⟩
    dsimp only at h
    split at h
    · exact absurd h (by simp)
    · split at h
      · exact absurd h (by simp)
      · simp only [Option.some.injEq, Outcome.ok.injEq] at h
        subst h
        dsimp only
        split <;> exact ⟨key.1, rfl, key.2, rfl⟩

/-- "Whatever its outcome" is false: if a step of the dynamic relaxation fails, the drag
coefficients stay scaled by the factor, and the wave mode is not set. -/
theorem C57_failure_false (c : Conf K σ ε) (fuel : ℕ) (s s' : Sys K σ) (e : ε)
    (h : icLegacy c fuel s = some (.error e s')) :
    init c fuel true false s = some (.error e s') ∧
    s'.coefs = s.coefs.scale c.fac ∧ s'.waveMode = s.waveMode ∧
    ∀ (l : ℕ) (x y : K), s.coefs.lines[l]? = some (x, y) → x ≠ 0 → c.fac ≠ 1 →
      s'.coefs.lines[l]? ≠ some (x, y) := by
  have hc : s'.coefs = s.coefs.scale c.fac ∧ s'.waveMode = s.waveMode := by
    unfold icLegacy at h
    dsimp only at h
    split at h
    · exact absurd h (by simp)
    · simp only [Option.some.injEq, Outcome.error.injEq] at h
      obtain ⟨-, rfl⟩ := h
      exact ⟨rfl, rfl⟩
    · split_ifs at h <;> simp at h
  refine ⟨?_, hc.1, hc.2, ?_⟩
  · unfold init generate
    simp [h]
  · intro l x y hl hx hf hc'
    rw [hc.1] at hc'
    simp only [Coefs.scale, List.getElem?_map, hl, Option.map_some, Option.some.injEq,
      Prod.mk.injEq] at hc'
    have := hc'.1
    rw [mul_eq_left₀ hx] at this
    exact hf this

/-- With the factor zero the drag coefficients are lost (not a number), whenever the
relaxation ends without an error. -/
theorem C57_zero_factor_false (c : Conf K σ ε) (fuel : ℕ) (s : Sys K σ) (h0 : c.fac = 0) :
    icLegacy c fuel s = none ∨ (∃ e s', icLegacy c fuel s = some (.error e s')) ∨
    icLegacy c fuel s = some .undefined := by
  unfold icLegacy
  dsimp only
  split
  · exact Or.inl rfl
  · exact Or.inr (Or.inl ⟨_, _, rfl⟩)
  · rw [if_pos h0]; exact Or.inr (Or.inr rfl)

/-- If the waves cannot be set up, the depth of the water is left at the average of the
bathymetry. -/
theorem C57_depth_false (c : Conf K σ ε) (fuel : ℕ) (s : Sys K σ) (d : K) (e : ε)
    (ha : c.average = some d) (hd : d ≠ s.depth) (hw : c.wavesFail c.waveKin d = some e) :
    ∃ s', init c fuel false true s = some (.error e s') ∧ s'.depth = d ∧ s'.depth ≠ s.depth := by
  unfold init generate
  simp only [if_true, ha, hw]
  exact ⟨_, rfl, rfl, hd⟩

/-- The interval of the option is a hundredth of itself after a dynamic relaxation, so that
another call of `MoorDyn_Init` uses a different one. -/
theorem C57_interval_false (c : Conf K σ ε) (fuel : ℕ) (s s' : Sys K σ)
    (h : icLegacy c fuel s = some (.ok s')) (h0 : s.icdt ≠ 0) : s'.icdt ≠ s.icdt := by
  obtain ⟨-, -, -, -, hi, -⟩ := icLegacy_ok c fuel s s' h
  rw [hi]
  intro hc
  rw [div_eq_iff (by norm_num)] at hc
  have : s.icdt * 99 = 0 := by linarith
  rcases mul_eq_zero.1 this with h | h
  · exact h0 h
  · norm_num at h

/-! ## C71: when the relaxation stops -/

/-- The state after `n` intervals. -/
def after (adv : σ → Except ε σ) (s : σ) : ℕ → Except ε σ
  | 0 => .ok s
  | n + 1 => match after adv s n with
    | .ok x => adv x
    | .error e => .error e

/-- `meas n l` is the tension of line `l` after `n` intervals. -/
def Measures (adv : σ → Except ε σ) (ten : σ → List K) (s : σ) (meas : ℕ → ℕ → K) : Prop :=
  ∀ n x, 1 ≤ n → after adv s n = .ok x → ∀ (l : ℕ) v, (ten x)[l]? = some v → meas n l = v

theorem maxErr_ne_nan (m e : RelErr K) (h : m ≠ .nan) : maxErr m e ≠ .nan := by
  cases e <;> cases m <;> simp_all [maxErr]
  split_ifs <;> simp

theorem exceeds_maxErr (thr : K) (m e : RelErr K) (h : m ≠ .nan) :
    exceeds (maxErr m e) thr = (exceeds m thr || exceeds e thr) := by
  cases e with
  | nan => cases m <;> simp [maxErr, exceeds]
  | inf => cases m <;> simp [maxErr, exceeds]
  | fin e =>
    cases m with
    | nan => exact absurd rfl h
    | inf => simp [maxErr, exceeds]
    | fin m =>
      simp only [maxErr]
      split_ifs with hem
      · simp only [exceeds, ← Bool.decide_or, decide_eq_decide]
        constructor
        · intro h; exact Or.inr h
        · rintro (h | h)
          · exact lt_trans h hem
          · exact h
      · simp only [exceeds, ← Bool.decide_or, decide_eq_decide]
        constructor
        · intro h; exact Or.inl h
        · rintro (h | h)
          · exact h
          · exact lt_of_lt_of_le h (not_lt.1 hem)

theorem exceeds_foldl (thr : K) (es : List (RelErr K)) (m : RelErr K) (hm : m ≠ .nan) :
    exceeds (es.foldl maxErr m) thr = (exceeds m thr || es.any (exceeds · thr)) := by
  induction es generalizing m with
  | nil => simp
  | cons e es ih =>
    rw [List.foldl_cons, ih _ (maxErr_ne_nan m e hm), exceeds_maxErr thr m e hm, List.any_cons,
      Bool.or_assoc]

/-- The relative change from `a` to `b` is within `thr`. -/
def Within (thr a b : K) : Prop := |b - a| ≤ thr * |a|

theorem exceeds_relErr (thr now last : K) (ht : 0 ≤ thr) :
    exceeds (relErr now last) thr = false ↔ Within thr last now := by
  unfold relErr Within
  by_cases hl : last = 0
  · rw [if_pos hl]
    by_cases hn : now = 0
    · rw [if_pos hn]
      simp [exceeds, hl, hn]
    · rw [if_neg hn]
      simp [exceeds, hl, hn]
  · rw [if_neg hl]
    simp only [exceeds, decide_eq_false_iff_not, not_lt, gt_iff_lt]
    have hp : 0 < |last| := abs_pos.2 hl
    have : now / last - 1 = (now - last) / last := by field_simp
    rw [this, abs_div, div_le_iff₀ hp]

/-- The check of the tensions. -/
theorem worst_iff (thr : K) (ht : 0 ≤ thr) (rows : List (Row K)) :
    exceeds (worst rows) thr = false ↔
      ∀ r ∈ rows, ∀ x ∈ r.last, Within thr x r.now := by
  unfold worst
  rw [exceeds_foldl thr _ _ (by simp)]
  have h0 : exceeds (.fin (0 : K)) thr = false := by simp [exceeds, ht]
  rw [h0, Bool.false_or, List.any_eq_false]
  constructor
  · intro h r hr x hx
    rw [← exceeds_relErr thr _ _ ht]
    simpa using h (relErr r.now x) (List.mem_flatMap.2 ⟨r, hr, List.mem_map.2 ⟨x, hx, rfl⟩⟩)
  · intro h e he
    obtain ⟨r, hr, hx⟩ := List.mem_flatMap.1 he
    obtain ⟨x, hx', rfl⟩ := List.mem_map.1 hx
    simpa using (exceeds_relErr thr r.now x ht).2 (h r hr x hx')

/-- What the table of tensions holds after `n` intervals. -/
def Table (nl : ℕ) (meas : ℕ → ℕ → K) (n : ℕ) (rows : List (Row K)) : Prop :=
  rows.length = nl ∧ ∀ (l : ℕ) row, rows[l]? = some row → row.last.length = 9 ∧
    (1 ≤ n → row.now = meas n l) ∧
    ∀ pt < 9, pt + 2 ≤ n → row.last[pt]? = some (meas (n - 1 - pt) l)

theorem Table.roll {nl : ℕ} {meas : ℕ → ℕ → K} {n : ℕ} {rows : List (Row K)}
    (h : Table nl meas n rows) (ts : List K) (hl : ts.length = nl)
    (hm : ∀ (l : ℕ) v, ts[l]? = some v → meas (n + 1) l = v) :
    Table nl meas (n + 1) (List.zipWith Row.roll rows ts) := by
  obtain ⟨h1, h2⟩ := h
  refine ⟨by simp [h1, hl], fun l row hr => ?_⟩
  rw [List.getElem?_zipWith] at hr
  match hr1 : rows[l]?, hr2 : ts[l]? with
  | none, _ => simp [hr1] at hr
  | some _, none => simp [hr1, hr2] at hr
  | some r0, some v =>
    simp only [hr1, hr2, Option.some.injEq] at hr
    subst hr
    obtain ⟨a, b, c⟩ := h2 l r0 hr1
    refine ⟨by simp [Row.roll], fun _ => (hm l v hr2).symm, fun pt hpt hn => ?_⟩
    simp only [Row.roll, List.getElem?_map, List.getElem?_range hpt, Option.map_some]
    by_cases h0 : pt = 0
    · subst h0
      rw [if_pos rfl, b (by omega)]
      simp
    · rw [if_neg h0]
      have := c (pt - 1) (by omega) (by omega)
      rw [List.getD_eq_getElem?_getD, this]
      have e : n - 1 - (pt - 1) = n + 1 - 1 - pt := by omega
      simp [e]

/-- The full table compares the last measure with the nine before. -/
theorem Table.within {nl : ℕ} {meas : ℕ → ℕ → K} {n : ℕ} {rows : List (Row K)}
    (h : Table nl meas n rows) (hn : 10 ≤ n) (thr : K) (ht : 0 ≤ thr) :
    exceeds (worst rows) thr = false ↔
      ∀ l < nl, ∀ k, 1 ≤ k → k ≤ 9 → Within thr (meas (n - k) l) (meas n l) := by
  obtain ⟨h1, h2⟩ := h
  rw [worst_iff thr ht]
  constructor
  · intro h l hl k hk hk'
    have hr : rows[l]? = some rows[l] := List.getElem?_eq_getElem (by omega)
    obtain ⟨a, b, c⟩ := h2 l _ hr
    have hx := c (k - 1) (by omega) (by omega)
    have := h _ (List.getElem_mem (by omega : l < rows.length)) _ (List.mem_of_getElem? hx)
    rw [b (by omega)] at this
    have e : n - 1 - (k - 1) = n - k := by omega
    rwa [e] at this
  · intro h r hr x hx
    obtain ⟨l, hl⟩ := List.mem_iff_getElem?.1 hr
    obtain ⟨pt, hp⟩ := List.mem_iff_getElem?.1 hx
    obtain ⟨a, b, c⟩ := h2 l _ hl
    have hpt : pt < 9 := by
      by_contra hge
      rw [List.getElem?_eq_none (by omega)] at hp
      exact absurd hp (by simp)
    have hll : l < nl := by
      by_contra hge
      rw [List.getElem?_eq_none (by omega)] at hl
      exact absurd hl (by simp)
    have := c pt hpt (by omega)
    rw [hp] at this
    simp only [Option.some.injEq] at this
    rw [this, b (by omega)]
    have e : n - 1 - pt = n - (pt + 1) := by omega
    rw [e]
    exact h l hll (pt + 1) (by omega) (by omega)

/-- The interval as integrated: nothing happens if it is not positive. -/
def eff (h : K) (adv : σ → Except ε σ) : σ → Except ε σ := fun s => if h > 0 then adv s else .ok s

/-- Analysis of the loop. -/
theorem loop_done (adv : σ → Except ε σ) (ten : σ → List K) (h tmax tiny thr : K) (s0 : σ)
    (nl : ℕ) (hten : ∀ s, (ten s).length = nl) (meas : ℕ → ℕ → K)
    (hmeas : Measures (eff h adv) ten s0 meas) :
    ∀ (fuel n : ℕ) (s : σ) (rows : List (Row K)) (conv : Bool) (c : Bool) (t' : K) (s' : σ)
      (rows' : List (Row K)),
      Table nl meas n rows → after (eff h adv) s0 n = .ok s →
      loop adv ten h tmax tiny thr fuel (n + 1) (n * max h 0) s rows conv =
        some (.done c t' s' rows') →
      ∃ m, n ≤ m ∧ after (eff h adv) s0 m = .ok s' ∧ t' = m * max h 0 ∧ Table nl meas m rows' ∧
        (m = n → rows' = rows) ∧ (n < m → tmax - (m - 1 : ℕ) * max h 0 > tiny) ∧
        ((c = true ∧ 10 ≤ m ∧ n < m ∧
            exceeds (worst rows') thr = false) ∨
         (tmax - t' ≤ tiny ∧ ((m ≤ 9 ∨ m = n) → c = conv) ∧
          (10 ≤ m → n < m → c = false ∧ exceeds (worst rows') thr = true))) := by
  intro fuel
  induction fuel with
  | zero =>
    intro n s rows conv c t' s' rows' hT ha hl
    rw [loop] at hl
    by_cases hc : tmax - n * max h 0 > tiny
    · rw [if_pos hc] at hl; simp at hl
    · rw [if_neg hc] at hl
      simp only [Option.some.injEq, Res.done.injEq] at hl
      obtain ⟨rfl, rfl, rfl, rfl⟩ := hl
      exact ⟨n, le_rfl, ha, rfl, hT, fun _ => rfl, fun hh => by omega,
        Or.inr ⟨not_lt.1 hc, fun _ => rfl, fun _ h => by omega⟩⟩
  | succ f ih =>
    intro n s rows conv c t' s' rows' hT ha hl
    rw [loop] at hl
    by_cases hc : tmax - n * max h 0 > tiny
    · rw [if_pos hc] at hl
      have heff : (if h > 0 then adv s else Except.ok s) = eff h adv s := rfl
      have htime : (if h > 0 then (n : K) * max h 0 + h else n * max h 0) =
          ((n + 1 : ℕ) : K) * max h 0 := by
        by_cases hp : h > 0
        · rw [if_pos hp, max_eq_left hp.le]; push_cast; ring
        · rw [if_neg hp, max_eq_right (not_lt.1 hp)]; simp
      dsimp only at hl
      rw [heff] at hl
      match hx : eff h adv s with
      | .error e => rw [hx] at hl; simp at hl
      | .ok x =>
        rw [hx] at hl
        have ha' : after (eff h adv) s0 (n + 1) = .ok x := by
          simp only [after, ha, hx]
        have hT' := hT.roll (ten x) (hten x) (fun l v hv => hmeas (n + 1) x (by omega) ha' l v hv)
        dsimp only at hl
        rw [htime] at hl
        by_cases h9 : n + 1 > 9
        · rw [if_pos h9] at hl
          by_cases hex : exceeds (worst (List.zipWith Row.roll rows (ten x))) thr = true
          · rw [if_pos hex] at hl
            obtain ⟨m, a1, a2, a3, a4, a5, a7, a6⟩ := ih (n + 1) x _ false c t' s' rows' hT' ha' hl
            refine ⟨m, by omega, a2, a3, a4, fun hh => by omega, fun _ => ?_, ?_⟩
            · by_cases hmn : n + 1 < m
              · exact a7 hmn
              · have hmn' : m = n + 1 := by omega
                rw [hmn']; simpa using hc
            rcases a6 with ⟨b1, b2, b3, b4⟩ | ⟨b1, b2, b3⟩
            · exact Or.inl ⟨b1, b2, by omega, b4⟩
            · refine Or.inr ⟨b1, fun hh => by omega, fun hm _ => ?_⟩
              by_cases hmn : n + 1 < m
              · exact b3 hm hmn
              · have hmn' : m = n + 1 := by omega
                exact ⟨b2 (Or.inr hmn'), by rw [a5 hmn']; exact hex⟩
          · rw [if_neg hex] at hl
            simp only [Option.some.injEq, Res.done.injEq] at hl
            obtain ⟨rfl, rfl, rfl, rfl⟩ := hl
            refine ⟨n + 1, by omega, ha', rfl, hT', fun hh => by omega, fun _ => ?_,
              Or.inl ⟨rfl, by omega, by omega, ?_⟩⟩
            · simpa using hc
            · simpa using hex
        · rw [if_neg h9] at hl
          obtain ⟨m, a1, a2, a3, a4, a5, a7, a6⟩ := ih (n + 1) x _ conv c t' s' rows' hT' ha' hl
          refine ⟨m, by omega, a2, a3, a4, fun hh => by omega, fun _ => ?_, ?_⟩
          · by_cases hmn : n + 1 < m
            · exact a7 hmn
            · have hmn' : m = n + 1 := by omega
              rw [hmn']; simpa using hc
          rcases a6 with ⟨b1, b2, b3, b4⟩ | ⟨b1, b2, b3⟩
          · exact Or.inl ⟨b1, b2, by omega, b4⟩
          · refine Or.inr ⟨b1, fun hh => b2 (by omega), fun hm hmn => b3 hm (by omega)⟩
    · rw [if_neg hc] at hl
      simp only [Option.some.injEq, Res.done.injEq] at hl
      obtain ⟨rfl, rfl, rfl, rfl⟩ := hl
      exact ⟨n, le_rfl, ha, rfl, hT, fun _ => rfl, fun hh => by omega,
        Or.inr ⟨not_lt.1 hc, fun _ => rfl, fun _ h => by omega⟩⟩

theorem table_init (nl : ℕ) (meas : ℕ → ℕ → K) :
    Table nl meas 0 (List.replicate nl Row.init) := by
  refine ⟨by simp, fun l row hr => ?_⟩
  have : row = Row.init := by
    have := List.mem_of_getElem? hr
    exact List.eq_of_mem_replicate this
  subst this
  exact ⟨by simp [Row.init], fun h => by omega, fun pt _ h => by omega⟩

variable (adv : σ → Except ε σ) (ten : σ → List K) (h tmax tiny thr : K) (s0 : σ) (nl : ℕ)
  (meas : ℕ → ℕ → K)

/-- The loop of the dynamic relaxation from its beginning. -/
def relax (fuel : ℕ) : Option (Res K σ ε) :=
  loop adv ten h tmax tiny thr fuel 1 0 s0 (List.replicate nl Row.init) true

theorem relax_done (hten : ∀ s, (ten s).length = nl)
    (hmeas : Measures (eff h adv) ten s0 meas) (fuel : ℕ) (c : Bool) (t' : K) (s' : σ)
    (rows' : List (Row K))
    (hl : relax adv ten h tmax tiny thr s0 nl fuel = some (.done c t' s' rows')) :
    ∃ m, after (eff h adv) s0 m = .ok s' ∧ t' = m * max h 0 ∧ Table nl meas m rows' ∧
        (0 < m → tmax - (m - 1 : ℕ) * max h 0 > tiny) ∧
        ((c = true ∧ 10 ≤ m ∧
            exceeds (worst rows') thr = false) ∨
         (tmax - t' ≤ tiny ∧ (m ≤ 9 → c = true) ∧
          (10 ≤ m → c = false ∧ exceeds (worst rows') thr = true))) := by
  obtain ⟨m, -, a2, a3, a4, -, a7, a6⟩ := loop_done adv ten h tmax tiny thr s0 nl hten meas hmeas fuel
    0 s0 _ true c t' s' rows' (table_init nl meas) rfl (by simpa [relax] using hl)
  refine ⟨m, a2, a3, a4, a7, ?_⟩
  rcases a6 with ⟨b1, b2, b3, b4⟩ | ⟨b1, b2, b3⟩
  · exact Or.inl ⟨b1, b2, b4⟩
  · exact Or.inr ⟨b1, fun hm => b2 (Or.inl hm), fun hm => b3 hm (by omega)⟩

/-- **C71** (converged). If the relaxation ends by convergence after at least ten intervals,
the last tension of every line is within the threshold of each of the nine before. -/
theorem C71_converged_partial (hthr : 0 ≤ thr) (hten : ∀ s, (ten s).length = nl)
    (hmeas : Measures (eff h adv) ten s0 meas) (fuel : ℕ) (t' : K) (s' : σ)
    (rows' : List (Row K))
    (hl : relax adv ten h tmax tiny thr s0 nl fuel = some (.done true t' s' rows'))
    (hp : 0 < h) (ht : 10 * h ≤ t') :
    ∃ m : ℕ, 10 ≤ m ∧ t' = m * h ∧ after (eff h adv) s0 m = .ok s' ∧
      ∀ l < nl, ∀ k, 1 ≤ k → k ≤ 9 → Within thr (meas (m - k) l) (meas m l) := by
  obtain ⟨m, a1, a2, a3, a5, a4⟩ := relax_done adv ten h tmax tiny thr s0 nl meas hten hmeas fuel
    true t' s' rows' hl
  rw [max_eq_left hp.le] at a2
  have hm : 10 ≤ m := by
    by_contra hlt
    have : (m : K) ≤ 9 := by exact_mod_cast (by omega : m ≤ 9)
    nlinarith
  refine ⟨m, hm, a2, a1, ?_⟩
  rw [← a3.within hm thr hthr]
  rcases a4 with ⟨-, -, b⟩ | ⟨-, -, b⟩
  · exact b
  · exact absurd (b hm).1 (by simp)

/-- **C71** (not converged). If it ends without convergence the time is over and the tension
of some line differs by more than the threshold from one of the nine before. -/
theorem C71_not_converged (hthr : 0 ≤ thr) (hten : ∀ s, (ten s).length = nl)
    (hmeas : Measures (eff h adv) ten s0 meas) (fuel : ℕ) (t' : K) (s' : σ)
    (rows' : List (Row K))
    (hl : relax adv ten h tmax tiny thr s0 nl fuel = some (.done false t' s' rows')) :
    tmax - t' ≤ tiny ∧ ∃ m : ℕ, 10 ≤ m ∧ t' = m * max h 0 ∧ after (eff h adv) s0 m = .ok s' ∧
      ∃ l < nl, ∃ k, 1 ≤ k ∧ k ≤ 9 ∧ ¬ Within thr (meas (m - k) l) (meas m l) := by
  obtain ⟨m, a1, a2, a3, a5, a4⟩ := relax_done adv ten h tmax tiny thr s0 nl meas hten hmeas fuel
    false t' s' rows' hl
  rcases a4 with ⟨b, -⟩ | ⟨b1, b2, b3⟩
  · exact absurd b (by simp)
  · have hm : 10 ≤ m := by
      by_contra hlt
      exact absurd (b2 (by omega)) (by simp)
    refine ⟨b1, m, hm, a2, a1, ?_⟩
    have := (a3.within hm thr hthr).not.1 (by rw [(b3 hm).2]; simp)
    push Not at this
    obtain ⟨l, hl, k, hk, hk', hw⟩ := this
    exact ⟨l, hl, k, hk, hk', hw⟩

/-- Convergence is reported without any check if the maximum time is not more than nine
intervals, whatever the tensions do. -/
theorem C71_unchecked_false (hten : ∀ s, (ten s).length = nl)
    (fuel : ℕ) (c : Bool) (t' : K) (s' : σ)
    (rows' : List (Row K)) (hp : 0 < h) (htiny : 0 ≤ tiny) (hmax : tmax ≤ 9 * h)
    (hl : relax adv ten h tmax tiny thr s0 nl fuel = some (.done c t' s' rows')) :
    c = true ∧ t' ≤ 9 * h := by
  classical
  obtain ⟨m, a1, a2, a3, a5, a4⟩ := relax_done adv ten h tmax tiny thr s0 nl
    (fun n l => match after (eff h adv) s0 n with
      | .ok x => ((ten x)[l]?).getD 0
      | .error _ => 0) hten
    (fun n x hn hx l v hv => by simp only [hx, hv, Option.getD_some]) fuel c t' s' rows' hl
  rw [max_eq_left hp.le] at a2 a5
  have hm : m ≤ 9 := by
    by_contra hlt
    have h1 := a5 (by omega)
    have : (9 : K) ≤ ((m - 1 : ℕ) : K) := by exact_mod_cast (by omega : 9 ≤ m - 1)
    nlinarith
  have hm' : (m : K) ≤ 9 := by exact_mod_cast hm
  refine ⟨?_, by rw [a2]; nlinarith⟩
  rcases a4 with ⟨b, -⟩ | ⟨-, b, -⟩
  · exact b
  · exact b hm

deriving instance DecidableEq for Row
deriving instance DecidableEq for Res

/-- The documentation promises tensions steady over `dtIC`; the comparison covers nine
hundredths of it. A line whose tension grows steadily by one percent in every `dtIC` (here
1 s) counts as converged to 0.001 after a tenth of `dtIC`. -/
theorem C71_window_false :
    ∃ (adv : ℕ → Except Unit ℕ) (ten : ℕ → List ℚ) (rows : List (Row ℚ)),
      relax adv ten (1 / 10 / 10) 100 0 (1 / 1000) 0 1 100 = some (.done true (1 / 10) 10 rows) ∧
      ∀ n x y, ten n = [x] → ten (n + 100) = [y] → n ≤ 10 → ¬ Within (9 / 1000) x y := by
  refine ⟨fun n => .ok (n + 1), fun n => [10000 + n],
    [⟨10010, [10009, 10008, 10007, 10006, 10005, 10004, 10003, 10002, 10001]⟩], ?_, ?_⟩
  · decide +kernel
  · intro n x y hx hy hn
    simp only [List.cons.injEq, and_true] at hx hy
    subst hx; subst hy
    unfold Within
    have : (n : ℚ) ≤ 10 := by exact_mod_cast hn
    have h0 : (0 : ℚ) ≤ n := by positivity
    rw [abs_of_nonneg (by linarith : (0 : ℚ) ≤ 10000 + n)]
    push_cast
    rw [abs_of_nonneg (by linarith)]
    linarith

theorem loop_fuel (hp : 0 < h) : ∀ (fuel n : ℕ) (iic : ℕ) (s : σ) (rows : List (Row K))
    (conv : Bool), tmax - (n + fuel : ℕ) * h ≤ tiny →
      loop adv ten h tmax tiny thr fuel iic (n * h) s rows conv ≠ none := by
  intro fuel
  induction fuel with
  | zero =>
    intro n iic s rows conv hf
    rw [loop, if_neg (not_lt.2 (by simpa using hf))]
    simp
  | succ f ih =>
    intro n iic s rows conv hf
    rw [loop]
    by_cases hc : tmax - n * h > tiny
    · rw [if_pos hc]
      dsimp only
      rw [if_pos hp, if_pos hp]
      have ht : (n : K) * h + h = ((n + 1 : ℕ) : K) * h := by push_cast; ring
      rw [ht]
      have hf' : tmax - ((n + 1 + f : ℕ) : K) * h ≤ tiny := by
        rw [show n + 1 + f = n + (f + 1) by omega]; exact hf
      split
      · simp
      · split_ifs
        · exact ih _ _ _ _ _ hf'
        · simp
        · exact ih _ _ _ _ _ hf'
    · rw [if_neg hc]; simp

/-- **C71** (termination). The relaxation ends, whatever the tensions do. -/
theorem C71_terminates [Archimedean K] (hp : 0 < h) :
    ∃ fuel, relax adv ten h tmax tiny thr s0 nl fuel ≠ none := by
  obtain ⟨n, hn⟩ := Archimedean.arch (tmax - tiny) hp
  refine ⟨n, ?_⟩
  have := loop_fuel adv ten h tmax tiny thr hp n 0 1 s0 (List.replicate nl Row.init) true
    (by rw [nsmul_eq_mul] at hn; rw [zero_add]; linarith)
  simpa [relax] using this

/-! ## The hypotheses can be met -/

/-- Two lines, the tension of one settling, the other constant. -/
def settle : ℕ → List ℚ := fun n => [1000 + 64 / 2 ^ n, 500]

/-- Ends by convergence, not at the first check. -/
example : (match relax (ε := Unit) (fun n => .ok (n + 1)) settle (1 / 100) 1 0 (1 / 1000) 0 2 200 with
    | some (.done c t s _) => c && t = 15 / 100 && s = 15
    | _ => false) = true := by decide +kernel

example : (∀ s, (settle s).length = 2) ∧
    Measures (eff (1 / 100 : ℚ) (fun n => (.ok (n + 1) : Except Unit ℕ))) settle 0
      (fun n l => if l = 0 then 1000 + 64 / 2 ^ n else 500) := by
  refine ⟨fun s => rfl, ?_⟩
  have h : ∀ n, after (eff (1 / 100 : ℚ) (fun n => (.ok (n + 1) : Except Unit ℕ))) 0 n = .ok n := by
    intro n
    induction n with
    | zero => rfl
    | succ n ih => simp only [after, ih]; simp [eff]
  intro n x _ hx l v hv
  rw [h n] at hx
  simp only [Except.ok.injEq] at hx
  subst hx
  match l, hv with
  | 0, hv => simpa [settle] using hv
  | 1, hv => simpa [settle] using hv
  | l + 2, hv => simp [settle] at hv

/-- Ends without convergence: the tension keeps growing by a twentieth. -/
example : (match relax (ε := Unit) (fun n => .ok (n + 1)) (fun n => [(20 + n : ℚ)]) (1 / 100)
      (15 / 100) 0 (1 / 1000) 0 1 200 with
    | some (.done c t s _) => !c && t = 15 / 100 && s = 15
    | _ => false) = true := by decide +kernel

/-- Reported as converged without a check. -/
example : (match relax (ε := Unit) (fun n => .ok (n + 1)) (fun n => [(20 ^ n : ℚ)]) (1 / 100)
      (9 / 100) 0 (1 / 1000) 0 1 200 with
    | some (.done c t s _) => c && t = 9 / 100 && s = 9
    | _ => false) = true := by decide +kernel

/-- A system with a line, a point, a rod and a body. -/
def exSys : Sys ℚ ℕ where
  coefs := ⟨[(2, 1 / 10)], [3], [(1, 2, 3)], [[1, 2, 3, 4, 5, 6]]⟩
  icdt := 1
  waveMode := 0
  depth := 50
  time := 0
  sim := 0

/-- The dynamic relaxation with a factor of drag 5, in regular waves over a bathymetry; the
interval number `bad` fails. -/
def exConf (bad : ℕ) (fac : ℚ) : Conf ℚ ℕ String where
  adv := fun _ _ n => if n = bad then .error "nan" else .ok (n + 1)
  ten := settle
  nLines := 2
  start := fun _ => 0
  stationary := fun _ n => .ok n
  fac := fac
  tmax := 1
  tiny := 0
  thr := 1 / 1000
  waveKin := 3
  average := some 60
  wavesFail := fun _ _ => none
  output := none

deriving instance DecidableEq for Coefs

example : (match init (exConf 1000 5) 200 true false exSys with
    | some (.ok s) => s.coefs = exSys.coefs && s.waveMode = 3 && s.depth = 50 && s.time = 0
        && s.sim = 15 && s.icdt = 1 / 100
    | _ => false) = true := by decide +kernel

example : (match init (exConf 7 5) 200 true false exSys with
    | some (.error e s) => e = "nan" && s.coefs.lines = [(10, 1 / 2)] && s.waveMode = 0
    | _ => false) = true := by decide +kernel

example : (match init (exConf 1000 0) 200 true false exSys with
    | some .undefined => true
    | _ => false) = true := by decide +kernel

example : (match init { exConf 1000 5 with wavesFail := fun _ _ => some "waves" } 200 true false
      exSys with
    | some (.error e s) => e = "waves" && s.depth = 60
    | _ => false) = true := by decide +kernel

end MD.IC
