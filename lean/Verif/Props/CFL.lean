import Verif.Model.CFL
import Mathlib.Tactic.Linarith
import Mathlib.Tactic.FieldSimp
import Mathlib.Tactic.Ring
import Mathlib.Tactic.NormNum

/-!
# Property C20: CFL numbers and time steps
-/

set_option linter.unusedSimpArgs false

namespace MD.CFL

/-! ## Specification -/

mutual
/-- The natural periods of all the lines attached to an object, directly or through
other objects. -/
noncomputable def Obj.periods : Obj → List ℝ
  | .line k m => [period k m]
  | .super cs => childPeriods cs
/-- same, for a list -/
noncomputable def childPeriods : List Obj → List ℝ
  | [] => []
  | c :: cs => c.periods ++ childPeriods cs
end

mutual
/-- All the lines have positive stiffness and mass. -/
def Obj.Physical : Obj → Prop
  | .line k m => 0 < k ∧ 0 < m
  | .super cs => AllPhysical cs
/-- same, for a list -/
def AllPhysical : List Obj → Prop
  | [] => True
  | c :: cs => c.Physical ∧ AllPhysical cs
end

/-! ## Lemmas -/

theorem period_pos {k m : ℝ} (hk : 0 < k) (hm : 0 < m) : 0 < period k m := by
  unfold period
  have h1 : 0 < k / m := div_pos hk hm
  have h2 : 0 < Real.sqrt (k / m) := Real.sqrt_pos.mpr h1
  have := Real.pi_pos
  positivity

mutual
theorem periods_pos : ∀ (o : Obj), o.Physical → ∀ p ∈ o.periods, 0 < p
  | .line k m, h, p, hp => by
    simp only [Obj.periods, List.mem_singleton] at hp
    subst hp
    exact period_pos h.1 h.2
  | .super cs, h, p, hp => childPeriods_pos cs h p hp
theorem childPeriods_pos : ∀ (cs : List Obj), AllPhysical cs → ∀ p ∈ childPeriods cs, 0 < p
  | [], _, p, hp => by simp [childPeriods] at hp
  | c :: cs, h, p, hp => by
    simp only [childPeriods, List.mem_append] at hp
    rcases hp with hp | hp
    · exact periods_pos c h.1 p hp
    · exact childPeriods_pos cs h.2 p hp
end

/-- `d` is the smallest of `acc` and of all `f p`, `p ∈ ps` -/
def IsMin (f : ℝ → ℝ) (acc : ℝ) (ps : List ℝ) (d : ℝ) : Prop :=
  d ≤ acc ∧ (∀ p ∈ ps, d ≤ f p) ∧ (d = acc ∨ ∃ p ∈ ps, d = f p)

/-- largest -/
def IsMax (f : ℝ → ℝ) (acc : ℝ) (ps : List ℝ) (d : ℝ) : Prop :=
  acc ≤ d ∧ (∀ p ∈ ps, f p ≤ d) ∧ (d = acc ∨ ∃ p ∈ ps, d = f p)

theorem IsMin.step {f : ℝ → ℝ} {acc a big d : ℝ} {ps qs : List ℝ} (hb : acc ≤ big)
    (h1 : IsMin f big ps a ∨ (∃ p, ps = [p] ∧ a = f p)) (h2 : IsMin f (min acc a) qs d) :
    IsMin f acc (ps ++ qs) d := by
  obtain ⟨b1, b2, b3⟩ := h2
  have hacc : d ≤ acc := le_trans b1 (min_le_left _ _)
  have ha : d ≤ a := le_trans b1 (min_le_right _ _)
  rcases h1 with ⟨a1, a2, a3⟩ | ⟨p, rfl, rfl⟩
  · refine ⟨hacc, ?_, ?_⟩
    · intro p hp
      rcases List.mem_append.mp hp with hp | hp
      · exact le_trans ha (a2 p hp)
      · exact b2 p hp
    · rcases b3 with b3 | ⟨p, hp, e⟩
      · rcases le_total acc a with h | h
        · left; rw [b3, min_eq_left h]
        · rw [min_eq_right h] at b3
          rcases a3 with a3 | ⟨p, hp, e⟩
          · left; rw [b3, a3]; rw [a3] at h; exact le_antisymm h hb
          · right; exact ⟨p, by simp [hp], by rw [b3, e]⟩
      · right; exact ⟨p, by simp [hp], e⟩
  · refine ⟨hacc, ?_, ?_⟩
    · intro q hq
      rcases List.mem_append.mp hq with hq | hq
      · simp at hq; subst hq; exact ha
      · exact b2 q hq
    · rcases b3 with b3 | ⟨q, hq, e⟩
      · rcases le_total acc (f p) with h | h
        · left; rw [b3, min_eq_left h]
        · right; exact ⟨p, by simp, by rw [b3, min_eq_right h]⟩
      · right; exact ⟨q, by simp [hq], e⟩

theorem IsMax.step {f : ℝ → ℝ} {acc a d : ℝ} {ps qs : List ℝ} (hb : 0 ≤ acc)
    (h1 : IsMax f 0 ps a ∨ (∃ p, ps = [p] ∧ a = f p)) (h2 : IsMax f (max acc a) qs d) :
    IsMax f acc (ps ++ qs) d := by
  obtain ⟨b1, b2, b3⟩ := h2
  have hacc : acc ≤ d := le_trans (le_max_left _ _) b1
  have ha : a ≤ d := le_trans (le_max_right _ _) b1
  rcases h1 with ⟨a1, a2, a3⟩ | ⟨p, rfl, rfl⟩
  · refine ⟨hacc, ?_, ?_⟩
    · intro p hp
      rcases List.mem_append.mp hp with hp | hp
      · exact le_trans (a2 p hp) ha
      · exact b2 p hp
    · rcases b3 with b3 | ⟨p, hp, e⟩
      · rcases le_total a acc with h | h
        · left; rw [b3, max_eq_left h]
        · rw [max_eq_right h] at b3
          rcases a3 with a3 | ⟨p, hp, e⟩
          · left; rw [b3, a3]; rw [a3] at h; exact le_antisymm hb h
          · right; exact ⟨p, by simp [hp], by rw [b3, e]⟩
      · right; exact ⟨p, by simp [hp], e⟩
  · refine ⟨hacc, ?_, ?_⟩
    · intro q hq
      rcases List.mem_append.mp hq with hq | hq
      · simp at hq; subst hq; exact ha
      · exact b2 q hq
    · rcases b3 with b3 | ⟨q, hq, e⟩
      · rcases le_total (f p) acc with h | h
        · left; rw [b3, max_eq_left h]
        · right; exact ⟨p, by simp, by rw [b3, max_eq_right h]⟩
      · right; exact ⟨q, by simp [hq], e⟩

mutual
theorem cfl2dt_spec (big cfl : ℝ) : ∀ (o : Obj),
    IsMin (fun p => cfl * p) big o.periods (o.cfl2dt big cfl) ∨
      (∃ p, o.periods = [p] ∧ o.cfl2dt big cfl = cfl * p)
  | .line k m => Or.inr ⟨period k m, rfl, rfl⟩
  | .super cs => Or.inl (minChildren_spec big cfl big (le_refl _) cs)
theorem minChildren_spec (big cfl acc : ℝ) (h : acc ≤ big) : ∀ (cs : List Obj),
    IsMin (fun p => cfl * p) acc (childPeriods cs) (minChildren big cfl acc cs)
  | [] => ⟨le_refl _, by simp [childPeriods], Or.inl rfl⟩
  | c :: cs => by
    have h1 := cfl2dt_spec big cfl c
    have h2 := minChildren_spec big cfl (min acc (c.cfl2dt big cfl)) (le_trans (min_le_left _ _) h) cs
    exact IsMin.step h h1 h2
end

mutual
theorem dt2cfl_spec (dt : ℝ) : ∀ (o : Obj),
    IsMax (fun p => dt / p) 0 o.periods (o.dt2cfl dt) ∨
      (∃ p, o.periods = [p] ∧ o.dt2cfl dt = dt / p)
  | .line k m => Or.inr ⟨period k m, rfl, rfl⟩
  | .super cs => Or.inl (maxChildren_spec dt 0 (le_refl _) cs)
theorem maxChildren_spec (dt acc : ℝ) (h : 0 ≤ acc) : ∀ (cs : List Obj),
    IsMax (fun p => dt / p) acc (childPeriods cs) (maxChildren dt acc cs)
  | [] => ⟨le_refl _, by simp [childPeriods], Or.inl rfl⟩
  | c :: cs => by
    have h1 := dt2cfl_spec dt c
    have h2 := maxChildren_spec dt (max acc (c.dt2cfl dt)) (le_trans h (le_max_left _ _)) cs
    exact IsMax.step h h1 h2
end

theorem minDt_spec (big cfl dt : ℝ) (objs : List Obj) (h : dt ≤ big) :
    IsMin (fun p => cfl * p) dt (childPeriods objs) (minDt big cfl dt objs) := by
  unfold minDt
  induction objs generalizing dt with
  | nil => exact ⟨le_refl _, by simp [childPeriods], Or.inl rfl⟩
  | cons o objs ih =>
    exact IsMin.step h (cfl2dt_spec big cfl o) (ih _ (le_trans (min_le_left _ _) h))

theorem maxCfl_spec (dt : ℝ) (objs : List Obj) :
    IsMax (fun p => dt / p) 0 (childPeriods objs) (maxCfl dt objs) := by
  unfold maxCfl
  have : ∀ (objs : List Obj) (acc : ℝ), 0 ≤ acc → IsMax (fun p => dt / p) acc (childPeriods objs)
      (objs.foldl (fun c o => max c (o.dt2cfl dt)) acc) := by
    intro objs
    induction objs with
    | nil => intro acc h; exact ⟨le_refl _, by simp [childPeriods], Or.inl rfl⟩
    | cons o objs ih =>
      intro acc h
      exact IsMax.step h (dt2cfl_spec dt o) (ih _ (le_trans h (le_max_left _ _)))
  exact this objs 0 (le_refl _)

/-- smallest step for the largest CFL number of a step -/
theorem roundtrip (ps : List ℝ) (hpos : ∀ p ∈ ps, 0 < p) (hne : ps ≠ []) (dt c d big : ℝ)
    (hdt : 0 ≤ dt) (hbig : dt ≤ big) (hc : IsMax (fun p => dt / p) 0 ps c)
    (hd : IsMin (fun p => c * p) big ps d) : d = dt := by
  obtain ⟨c0, c1, c2⟩ := hc
  obtain ⟨d0, d1, d2⟩ := hd
  have hc' : ∀ p ∈ ps, dt ≤ c * p := by
    intro p hp
    have := c1 p hp
    rwa [div_le_iff₀ (hpos p hp)] at this
  obtain ⟨q, hq, hqe⟩ : ∃ q ∈ ps, c * q = dt := by
    rcases c2 with c2 | ⟨q, hq, e⟩
    · obtain ⟨q, hq⟩ := List.exists_mem_of_ne_nil ps hne
      have h1 := hc' q hq
      rw [c2, zero_mul] at h1
      exact ⟨q, hq, by rw [c2, zero_mul]; linarith⟩
    · refine ⟨q, hq, ?_⟩
      rw [e]; field_simp [(hpos q hq).ne']
  have hle : d ≤ dt := by
    have := d1 q hq
    simp only [hqe] at this
    exact this
  rcases d2 with d2 | ⟨p, hp, e⟩
  · exact le_antisymm hle (by rw [d2]; exact hbig)
  · exact le_antisymm hle (by rw [e]; exact hc' p hp)

/-! ## C20 -/

/-- C20, round trip: for every object with at least one line attached (directly or not), and
every representable non-negative time step. -/
theorem C20_roundtrip (o : Obj) (ho : o.Physical) (hne : o.periods ≠ []) (big dt : ℝ) (h0 : 0 ≤ dt)
    (hb : dt ≤ big) : o.cfl2dt big (o.dt2cfl dt) = dt := by
  have hpos := periods_pos o ho
  rcases dt2cfl_spec dt o with h1 | ⟨p, hp, e⟩
  · rcases cfl2dt_spec big (o.dt2cfl dt) o with h2 | ⟨p, hp, e⟩
    · exact roundtrip _ hpos hne dt _ _ big h0 hb h1 h2
    · have pp := hpos p (by rw [hp]; simp)
      cases o with
      | line k m =>
        simp only [Obj.periods, List.cons.injEq, and_true] at hp
        subst hp
        simp only [Obj.cfl2dt, Obj.dt2cfl]
        field_simp
      | super cs => exact roundtrip _ hpos hne dt _ _ big h0 hb h1 (minChildren_spec _ _ _ (le_refl _) cs)
  · cases o with
    | line k m =>
      have pp := hpos (period k m) (by simp [Obj.periods])
      simp only [Obj.cfl2dt, Obj.dt2cfl]
      field_simp
    | super cs =>
      exact roundtrip _ hpos hne dt _ _ big h0 hb (maxChildren_spec dt 0 (le_refl _) cs)
        (minChildren_spec _ _ _ (le_refl _) cs)

/-- C20, time step at `MoorDyn_Init`, partial: not larger than requested; if no time step was
requested, not larger than the requested CFL number allows for any line of any object and
equal to one of these; the CFL number reported is the largest one for the chosen step.
Missing: the requested CFL number when a time step is requested as well, see
`C20_cfl_ignored_false`. -/
theorem C20_init_partial (big dt cfl : ℝ) (objs : List Obj) (hb : dt ≤ big) :
    (initDt big dt cfl objs).1 ≤ dt ∧
    (0.9 * big ≤ dt → (∀ p ∈ childPeriods objs, (initDt big dt cfl objs).1 ≤ cfl * p) ∧
      ((initDt big dt cfl objs).1 = dt ∨ ∃ p ∈ childPeriods objs, (initDt big dt cfl objs).1 = cfl * p)) ∧
    (∀ p ∈ childPeriods objs, (initDt big dt cfl objs).1 / p ≤ (initDt big dt cfl objs).2) ∧
    ((initDt big dt cfl objs).2 = 0 ∨
      ∃ p ∈ childPeriods objs, (initDt big dt cfl objs).2 = (initDt big dt cfl objs).1 / p) := by
  have h1 := minDt_spec big (if dt < 0.9 * big then big else cfl) dt objs hb
  have h2 := maxCfl_spec (initDt big dt cfl objs).1 objs
  refine ⟨h1.1, ?_, h2.2.1, h2.2.2⟩
  intro hd
  rw [if_neg (not_lt.mpr hd)] at h1
  have e : (initDt big dt cfl objs).1 = minDt big cfl dt objs := by
    unfold initDt; rw [if_neg (not_lt.mpr hd)]
  rw [e]
  exact ⟨h1.2.1, h1.2.2⟩

/-- The requested CFL number is ignored whenever a time step was requested too: the result
does not depend on it. -/
theorem C20_cfl_ignored (big dt cfl cfl' : ℝ) (objs : List Obj) (h : dt < 0.9 * big) :
    initDt big dt cfl objs = initDt big dt cfl' objs := by
  unfold initDt; rw [if_pos h, if_pos h]

/-- C20 as stated is false: with a requested time step of 1 s and CFL number 1/2, and a line
with a natural period of 1 s, the time step is 1 s (CFL number 1). -/
theorem C20_cfl_ignored_false :
    let o := Obj.line (4 * Real.pi ^ 2) 1
    o.Physical ∧ o.cfl2dt 100 (1 / 2) = 1 / 2 ∧ initDt 100 1 (1 / 2) [o] = (1, 1) := by
  have hp : period (4 * Real.pi ^ 2) 1 = 1 := by
    unfold period
    have : (4 * Real.pi ^ 2 / 1 : ℝ) = (2 * Real.pi) ^ 2 := by ring
    rw [this, Real.sqrt_sq (by have := Real.pi_pos; positivity)]
    have := Real.pi_pos
    field_simp
  have hpi := Real.pi_pos
  refine ⟨⟨by positivity, one_pos⟩, ?_, ?_⟩
  · simp [Obj.cfl2dt, hp]
  · norm_num [initDt, minDt, maxCfl, Obj.cfl2dt, Obj.dt2cfl, hp]

/-- C20, `SetCFL` and `SetDt`: setting the CFL number, then setting the time step it gave,
returns the same CFL number. -/
theorem C20_set_roundtrip (big cfl : ℝ) (objs : List Obj) (hc : 0 ≤ cfl) (hphys : AllPhysical objs)
    (hb : ∃ p ∈ childPeriods objs, cfl * p ≤ big) :
    (setDt (setCfl big cfl objs).1 objs).2 = cfl ∧
    ∀ p ∈ childPeriods objs, (setCfl big cfl objs).1 ≤ cfl * p := by
  obtain ⟨a0, a1, a2⟩ := minDt_spec big cfl big objs (le_refl _)
  obtain ⟨b0, b1, b2⟩ := maxCfl_spec (minDt big cfl big objs) objs
  have hpos := childPeriods_pos objs hphys
  obtain ⟨q, hq, hqb⟩ := hb
  have hbig : 0 ≤ big := le_trans (mul_nonneg hc (le_of_lt (hpos q hq))) hqb
  set d := minDt big cfl big objs with hd
  refine ⟨?_, a1⟩
  show maxCfl d objs = cfl
  obtain ⟨p, hp, e⟩ : ∃ p ∈ childPeriods objs, d = cfl * p := by
    rcases a2 with a2 | a2
    · refine ⟨q, hq, le_antisymm (a1 q hq) (by rw [a2]; exact hqb)⟩
    · exact a2
  have h1 : cfl ≤ maxCfl d objs := by
    have := b1 p hp
    simp only at this
    rw [e, mul_div_assoc, div_self (hpos p hp).ne', mul_one, ← e] at this
    exact this
  apply le_antisymm _ h1
  rcases b2 with b2 | ⟨r, hr, e'⟩
  · rw [b2]; exact hc
  · rw [e', div_le_iff₀ (hpos r hr)]; exact a1 r hr

/-- non-vacuity: a body with a rod with a line, and a point with two lines -/
example : let o := Obj.super [.super [.line 100 1], .super [.line 50 2, .line 1 1]]
    o.Physical ∧ o.periods.length = 3 := by
  simp [Obj.Physical, AllPhysical, Obj.periods, childPeriods]

end MD.CFL
