import Verif.Model.Pointers
import Verif.Props.Layout
import Mathlib.Data.Rat.Defs
import Mathlib.Algebra.Order.Ring.Rat

/-!
# C120: null pointers
-/

namespace MD.Layout

variable {K σ : Type}

/-- There is a coupled body, rod or point. -/
def Coupled.Any (c : Coupled) : Prop := c.bodies ≠ [] ∨ c.rods ≠ [] ∨ c.points ≠ 0

/-- The forces are those of the coupled objects: six numbers for a body or rod, three for a point. -/
structure Library.Fits (L : Library K σ) : Prop where
  bodies : ∀ s, (L.bodies s).map (·.1) = L.c.bodies ∧ ∀ p ∈ L.bodies s, p.2.length = 6
  rods : ∀ s, (L.rods s).map (·.1) = L.c.rods ∧ ∀ p ∈ L.rods s, p.2.length = 6
  points : ∀ s, (L.points s).length = L.c.points ∧ ∀ p ∈ L.points s, p.length = 3

theorem total_any {c : Coupled} : c.Any ↔ c.total ≠ 0 := by
  rw [total_eq]
  have hw : ∀ l : List Kind, (l.map Kind.width).sum = 0 ↔ l = [] := by
    intro l
    cases l with
    | nil => simp
    | cons k l => cases k <;> simp [Kind.width]
  have h1 := hw c.bodies
  have h2 := hw c.rods
  unfold Coupled.Any
  constructor
  · rintro (h | h | h) e
    · exact h (h1.1 (by omega))
    · exact h (h2.1 (by omega))
    · omega
  · intro h
    by_contra hn
    simp only [not_or, ne_eq, not_not] at hn
    rw [← h1, ← h2] at hn
    omega

theorem count_any {c : Coupled} : c.Any ↔ nCoupledDOF c ≠ 0 := by
  rw [C12_count, total_any]
  constructor
  · omega
  · intro h e
    have : ¬ c.Any := fun ha => total_any.1 ha e
    have hb : c.bodies = [] := by
      by_contra hb
      exact this (.inl hb)
    have : c.pinnedBodies = 0 := by simp [Coupled.pinnedBodies, hb]
    omega

theorem readPtr_null {c : Coupled} (h : c.Any) : readPtr (K := K) c none = none := by
  have := total_any.1 h
  rw [readPtr, readAll_eq, if_neg (by simpa using this)]
  rfl

theorem readPtr_none {c : Coupled} (h : ¬ c.Any) (x : Option (List K)) : readPtr c x = some [] := by
  have ht : c.total = 0 := by
    by_contra hn
    exact h (total_any.2 hn)
  unfold Coupled.Any at h
  simp only [not_or, ne_eq, not_not] at h
  rw [readPtr, readAll_eq, if_pos (by omega)]
  simp [Coupled.shape, h.1, h.2.1, h.2.2, readW]

theorem readPtr_long {c : Coupled} {x : List K} (h : c.total ≤ x.length) : ∃ v, readPtr c (some x) = some v := by
  rw [readPtr]
  obtain ⟨v, hv⟩ := (C12_entries_read c x).1 h
  exact ⟨v, by simp [hv]⟩

variable (L : Library K σ)

/-- **C120**: a system without coupled objects needs no arrays: whatever pointers are given, `MoorDyn_Init` and `MoorDyn_Step` do the same as with any
others, their behaviour is defined, and the array of forces stays as it is. -/
theorem C120_uncoupled [LinearOrder K] [Zero K] (h : ¬ L.c.Any) (x xd f : Option (List K)) (t dt : K) (s : σ) :
    initCall L x xd t s = .returns (L.start [] [] s).1 (L.start [] [] s).2 t none ∧
      (dt ≤ 0 → stepCall L x xd f (some t) (some dt) s = .returns 0 s t f) ∧
      (0 < dt → stepCall L x xd f (some t) (some dt) s =
        .returns (L.go [] [] dt t s).1 (L.go [] [] dt t s).2.2 (L.go [] [] dt t s).2.1 f) := by
  have hd : nCoupledDOF L.c = 0 := by
    by_contra hn
    exact h (count_any.2 hn)
  refine ⟨by simp [initCall, readPtr_none h], fun hdt => by simp [stepCall, hdt, recover, hd], fun hdt => ?_⟩
  simp only [stepCall, not_le.2 hdt, if_false, readPtr_none h, recover, hd, if_true]
  split_ifs with h1
  · rfl
  · simp only [ne_eq, not_not] at h1
    rw [h1]

/-- **C120**: a step that is not positive reads no motions, and with coupled objects a null pointer to the forces is reported as
`MOORDYN_INVALID_VALUE`; the system and the time stay as they are. -/
theorem C120_idle [LinearOrder K] [Zero K] (h : L.c.Any) (x xd : Option (List K)) (t dt : K) (hdt : dt ≤ 0) (s : σ) :
    stepCall L x xd none (some t) (some dt) s = .returns (-6) s t none := by
  have hd := count_any.1 h
  simp [stepCall, hdt, recover, forcesPtr, hd]

theorem recover_long (hL : L.Fits) {f : List K} (hf : L.c.total ≤ f.length) (t : K) (s : σ) :
    ∃ f', recover L t s (some f) = .returns 0 s t (some f') ∧ f'.length = f.length ∧ f'.drop L.c.total = f.drop L.c.total ∧
      f'.take L.c.total = (allForces (L.bodies s) (L.rods s) (L.points s)).flatten := by
  have hc : coupledOf (L.bodies s) (L.rods s) (L.points s) = L.c := by
    unfold coupledOf
    rw [(hL.bodies s).1, (hL.rods s).1, (hL.points s).1]
  obtain ⟨f', h1, h2⟩ := (C12_entries_written _ _ _ (hL.bodies s).2 (hL.rods s).2 (hL.points s).2 f).2 (by rw [hc]; exact hf)
  rw [hc] at h2
  by_cases hd : nCoupledDOF L.c = 0
  · have hn : ¬ L.c.Any := fun ha => count_any.1 ha hd
    have ht : L.c.total = 0 := by
      by_contra hn'
      exact hn (total_any.2 hn')
    refine ⟨f, by simp [recover, hd], rfl, rfl, ?_⟩
    rw [← h2.2.2, ht]
    simp
  · exact ⟨f', by simp [recover, hd, forcesPtr, h1], h2⟩

/-- **C120**: with arrays that have the entries of the coupled objects the behaviour is defined: the call returns the code of the step, and after a
step that succeeded the array holds the forces, and what is behind them is untouched.  If the step fails the array is not touched. -/
theorem C120_arrays [LinearOrder K] [Zero K] (hL : L.Fits) {x xd f : List K} (hx : L.c.total ≤ x.length) (hxd : L.c.total ≤ xd.length)
    (hf : L.c.total ≤ f.length) (t dt : K) (s : σ) : ∃ code s' t' f', stepCall L (some x) (some xd) (some f) (some t) (some dt) s =
        .returns code s' t' (some f') ∧ f'.length = f.length ∧ f'.drop L.c.total = f.drop L.c.total ∧
      (dt ≤ 0 → code = 0 ∧ s' = s ∧ t' = t) ∧ (code ≠ 0 → f' = f) ∧
      (code = 0 → f'.take L.c.total = (allForces (L.bodies s') (L.rods s') (L.points s')).flatten) := by
  by_cases hdt : dt ≤ 0
  · obtain ⟨f', h1, h2, h3, h4⟩ := recover_long L hL hf t s
    exact ⟨0, s, t, f', by simp [stepCall, hdt, h1], h2, h3, fun _ => ⟨rfl, rfl, rfl⟩, fun h => absurd rfl h, fun _ => h4⟩
  · obtain ⟨a, ha⟩ := readPtr_long hx
    obtain ⟨b, hb⟩ := readPtr_long hxd
    by_cases hr : (L.go a b dt t s).1 = 0
    · obtain ⟨f', h1, h2, h3, h4⟩ := recover_long L hL hf (L.go a b dt t s).2.1 (L.go a b dt t s).2.2
      exact ⟨0, (L.go a b dt t s).2.2, (L.go a b dt t s).2.1, f', by simp [stepCall, hdt, ha, hb, hr, h1], h2, h3, fun h => absurd h hdt, fun h => absurd rfl h, fun _ => h4⟩
    · exact ⟨(L.go a b dt t s).1, (L.go a b dt t s).2.2, (L.go a b dt t s).2.1, f, by simp [stepCall, hdt, ha, hb, hr], rfl, rfl, fun h => absurd h hdt, fun _ => rfl,
        fun h => absurd h hr⟩

/-- C120 is false: a null pointer to the places or to the velocities of coupled objects is not reported to the caller by `MoorDyn_Init` nor, with a
positive step, by `MoorDyn_Step`: it is followed. -/
theorem C120_motion_false [LinearOrder K] [Zero K] (h : L.c.Any) (x xd f : Option (List K)) (hx : x = none ∨ xd = none) (t dt : K) (s : σ) :
    initCall L x xd t s = .undefined ∧ (0 < dt → stepCall L x xd f (some t) (some dt) s = .undefined) := by
  have hn := readPtr_null (K := K) h
  have e : ∀ {β : Type} (g : List (List (Option K)) → List (List (Option K)) → β) (u : β),
      (match readPtr L.c x, readPtr L.c xd with | some a, some b => g a b | _, _ => u) = u := by
    intro β g u
    rcases hx with rfl | rfl
    · rw [hn]
    · rw [hn]
      cases readPtr L.c x <;> rfl
  refine ⟨e _ _, fun hdt => ?_⟩
  simp only [stepCall, not_le.2 hdt, if_false]
  exact e _ _

/-- C120 is false: a null pointer to the forces is reported only after the step, which has been taken: the time and the system are those after it. -/
theorem C120_forces_false [LinearOrder K] [Zero K] (h : L.c.Any) {x xd : List K} (hx : L.c.total ≤ x.length) (hxd : L.c.total ≤ xd.length)
    (t dt : K) (hdt : 0 < dt) (s : σ) : ∃ a b, readPtr L.c (some x) = some a ∧ readPtr L.c (some xd) = some b ∧
      ((L.go a b dt t s).1 = 0 → stepCall L (some x) (some xd) none (some t) (some dt) s =
        .returns (-6) (L.go a b dt t s).2.2 (L.go a b dt t s).2.1 none) := by
  obtain ⟨a, ha⟩ := readPtr_long hx
  obtain ⟨b, hb⟩ := readPtr_long hxd
  have hd := count_any.1 h
  exact ⟨a, b, ha, hb, fun hr => by simp [stepCall, not_le.2 hdt, ha, hb, hr, recover, forcesPtr, hd]⟩

/-- C120 is false: null pointers to the time and to the step are followed, with any system. -/
theorem C120_time_false [LinearOrder K] [Zero K] (x xd f : Option (List K)) (t dt : Option K) (h : t = none ∨ dt = none) (s : σ) :
    stepCall L x xd f t dt s = .undefined := by
  rcases h with rfl | rfl
  · rfl
  · cases t <;> rfl

/-! ## Cases -/

/-- A coupled body and a coupled point; the state is the time, and each step takes the time on. -/
def barge : Library ℚ ℚ where
  c := ⟨[.coupled], [], 1⟩
  start _ _ s := (0, s)
  go _ _ dt _ s := (0, s + dt, s + dt)
  bodies s := [(.coupled, [s, 1, 2, 3, 4, 5])]
  rods _ := []
  points s := [[6, 7, s]]

/-- The hypotheses of the theorems with coupled objects. -/
example : barge.c.Any ∧ barge.Fits ∧ barge.c.total = 9 :=
  ⟨.inl (by decide), ⟨fun s => ⟨rfl, by simp [barge]⟩, fun s => ⟨rfl, by simp [barge]⟩, fun s => ⟨rfl, by simp [barge]⟩⟩, by decide⟩

/-- What is reported and what is not. -/
example : stepCall barge (some (List.replicate 9 0)) (some (List.replicate 9 0)) (some (List.replicate 10 0)) (some 0) (some 1) 3 =
      .returns 0 4 4 (some [4, 1, 2, 3, 4, 5, 6, 7, 4, 0]) ∧
    stepCall barge (some (List.replicate 9 0)) (some (List.replicate 9 0)) none (some 0) (some 1) 3 = .returns (-6) 4 4 none ∧
    stepCall barge none (some (List.replicate 9 0)) (some (List.replicate 9 0)) (some 0) (some 1) 3 = .undefined ∧
    initCall barge (some (List.replicate 9 0)) none 0 3 = .undefined := by
  decide +kernel

/-- A system without coupled objects. -/
example : ¬ (⟨[], [], 0⟩ : Coupled).Any := by simp [Coupled.Any]

end MD.Layout
