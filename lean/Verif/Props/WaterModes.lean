import Verif.Model.WaterModes
import Verif.Props.Waves

/-!
# C88: the sea is the one asked for
-/

namespace MD.WaterModes

/-- The manual (docs/waterkinematics.rst) on `WaveKin`: waves of the values it describes as
implemented. External waves (1) have no model of their own. -/
def docWaves : ℤ → Option (Option WaveSrc)
  | 0 => some none
  | 1 => some none
  | 2 => some (some .fftGrid)
  | 3 => some (some .elevationGrid)
  | 7 => some (some .spectrum)
  | _ => none

/-- The manual on `Currents`. -/
def docCurrents : ℤ → Option (Option CurrentSrc)
  | 0 => some none
  | 1 => some (some .steady)
  | 2 => some (some .dynamic)
  | 5 => some (some .fourD)
  | _ => none

theorem docWaves_cases {w : ℤ} {s : Option WaveSrc} (h : docWaves w = some s) :
    (w = 0 ∧ s = none) ∨ (w = 1 ∧ s = none) ∨ (w = 2 ∧ s = some .fftGrid) ∨
      (w = 3 ∧ s = some .elevationGrid) ∨ (w = 7 ∧ s = some .spectrum) := by
  unfold docWaves at h
  split at h <;> simp_all

theorem docCurrents_cases {c : ℤ} {s : Option CurrentSrc} (h : docCurrents c = some s) :
    (c = 0 ∧ s = none) ∨ (c = 1 ∧ s = some .steady) ∨ (c = 2 ∧ s = some .dynamic) ∨
      (c = 5 ∧ s = some .fourD) := by
  unfold docCurrents at h
  split at h <;> simp_all

/-- **C88** (modes): all pairs of documented values are accepted and give the waves and the current
of the manual. The current is added to the grid of the waves if `UnifyCurrentGrid` is set and the
waves are on a grid, and kept apart otherwise. -/
theorem C88_modes (w c : ℤ) (unify : Bool) (sw : Option WaveSrc) (sc : Option CurrentSrc)
    (hw : docWaves w = some sw) (hc : docCurrents c = some sc) :
    ∃ s, setup w c unify = .ok s ∧ s.wave = sw ∧
      if unify = true ∧ (sw = some .fftGrid ∨ sw = some .elevationGrid)
      then s.current = none ∧ s.merged = sc else s.current = sc ∧ s.merged = none := by
  rcases docWaves_cases hw with ⟨rfl, rfl⟩ | ⟨rfl, rfl⟩ | ⟨rfl, rfl⟩ | ⟨rfl, rfl⟩ | ⟨rfl, rfl⟩ <;>
    rcases docCurrents_cases hc with ⟨rfl, rfl⟩ | ⟨rfl, rfl⟩ | ⟨rfl, rfl⟩ | ⟨rfl, rfl⟩ <;>
    cases unify <;> exact ⟨_, rfl, by decide⟩

/-- **C88** (errors): if the waves (the current) are off, values of `Currents` (`WaveKin`) that the
manual does not mention are refused, and so is `WaveKin` 4. -/
theorem C88_refused_partial (n : ℤ) (unify : Bool) (h0 : 0 ≤ n) (h7 : n ≤ 7) :
    (docCurrents n = none → n ≠ 3 → n ≠ 4 → setup 0 n unify = .refused) ∧
    (n = 4 → setup n 0 unify = .refused) := by
  obtain h | h | h | h | h | h | h | h : n = 0 ∨ n = 1 ∨ n = 2 ∨ n = 3 ∨ n = 4 ∨ n = 5 ∨ n = 6 ∨
    n = 7 := by omega
  all_goals subst h; cases unify <;> decide

/-- **C88** is false of the values that the manual calls not implemented: waves 5 and 6 are still
water, currents 3 and 4 are no current, without an error. -/
theorem C88_unimplemented_false (unify : Bool) :
    (∀ w : ℤ, w = 5 ∨ w = 6 → docWaves w = none ∧ setup w 0 unify = setup 0 0 unify) ∧
    (∀ c : ℤ, c = 3 ∨ c = 4 → docCurrents c = none ∧ setup 0 c unify = setup 0 0 unify) := by
  constructor
  · rintro w (rfl | rfl) <;> cases unify <;> decide
  · rintro c (rfl | rfl) <;> cases unify <;> decide

/-- **C88** is false of values that are not implemented beside ones that are: the first are ignored,
without an error. -/
theorem C88_ignored_false (w c : ℤ) (unify : Bool) (hw0 : 0 ≤ w) (hw7 : w ≤ 7) (hc0 : 0 ≤ c)
    (hc7 : c ≤ 7) :
    (∀ sc, docWaves w = none → docCurrents c = some (some sc) →
      setup w c unify = .ok ⟨none, some sc, none⟩) ∧
    (∀ sw, docWaves w = some (some sw) → docCurrents c = none →
      setup w c unify = .ok ⟨some sw, none, none⟩) := by
  obtain h | h | h | h | h | h | h | h : w = 0 ∨ w = 1 ∨ w = 2 ∨ w = 3 ∨ w = 4 ∨ w = 5 ∨ w = 6 ∨
    w = 7 := by omega
  all_goals
    subst h
    obtain h | h | h | h | h | h | h | h : c = 0 ∨ c = 1 ∨ c = 2 ∨ c = 3 ∨ c = 4 ∨ c = 5 ∨ c = 6 ∨
      c = 7 := by omega
  all_goals
    subst h
    constructor <;> intro s h1 h2 <;> cases s <;> cases unify <;>
      first | rfl | (exfalso; revert h1 h2; decide)

/-- A current of 2 m/s at the surface, 1 m/s at 10 m depth, the same at 0 s and 60 s -/
def river : MD.Waves.CurrentGrid ℚ ℚ :=
  ⟨[0], [0], [-10, 0], 2, 60, [[[[1, 1], [2, 2]]]], [[[[0, 0], [0, 0]]]]⟩

/-- **C88** is false above the water: the manual says that the velocity of time dependent currents
is zero there, but the current of the surface goes on into the air. -/
theorem C88_air_false : ∃ z t : ℚ, 0 < z ∧ river.kin 0 0 z t = some (2, 0) ∧
    river.kin 0 0 (-5) t = some (3 / 2, 0) := by
  refine ⟨8, 30, by norm_num, ?_, ?_⟩ <;> decide +kernel

/-- Non-vacuity: a wave grid with a gridded current, merged. -/
example : docWaves 3 = some (some .elevationGrid) ∧ docCurrents 5 = some (some .fourD) ∧
    setup 3 5 true = .ok ⟨some .elevationGrid, none, some .fourD⟩ := by decide

/-- Non-vacuity: waves 6 with a steady current, and waves 7 with current 3. -/
example : docWaves 6 = none ∧ docCurrents 1 = some (some .steady) ∧
    docWaves 7 = some (some .spectrum) ∧ docCurrents 3 = none := by decide

end MD.WaterModes
