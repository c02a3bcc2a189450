import Verif.Model.WaveFFT
import Verif.Lemmas.Waves
import Verif.Props.WaveInput
import Mathlib.Tactic.Linarith
import Mathlib.Tactic.FieldSimp
import Mathlib.Tactic.Ring
import Mathlib.Tactic.NormNum
import Mathlib.Data.Rat.Floor
import Mathlib.Algebra.Order.Module.Rat

/-!
# Property C77: current profiles made of files
-/

set_option linter.unusedSimpArgs false
set_option linter.unusedVariables false
set_option linter.unusedSectionVars false

namespace MD.Waves

open MD.Interp

variable {K V : Type} [Field K] [LinearOrder K] [IsStrictOrderedRing K] [FloorSemiring K]
  [AddCommGroup V] [Module K V]

/-- interpolation in a grid which has one place in `x` and one in `y` -/
theorem interp4_column (cols : List (List V)) (k w : ℕ) (a0 a1 b0 b1 : V) (fz fw : K)
    (h00 : (cols[low k]?.bind fun r => r[low w]?) = some a0) (h01 : (cols[k]?.bind fun r => r[low w]?) = some a1)
    (h10 : (cols[low k]?.bind fun r => r[w]?) = some b0) (h11 : (cols[k]?.bind fun r => r[w]?) = some b1) :
    interp4 [[cols]] 0 0 k w (0 : K) 0 fz fw = some (lerp (lerp a0 a1 fz) (lerp b0 b1 fz) fw) := by
  have g : ∀ k w, get4 [[cols]] 0 0 k w = cols[k]?.bind fun r => r[w]? := by
    intro k w; simp [get4, get3]
  have l0 : low 0 = 0 := rfl
  unfold interp4
  simp only [l0, g, h00, h01, h10, h11, Option.bind_eq_bind, Option.bind_some, Option.pure_def, lerp_self]
  congr 1
  simp only [lerp]; module

/-! ## Steady profiles -/

/-- **C77 (steady).** For every profile with increasing depths, one or more, the current at
any place and time is the linear interpolation of the profile at the depth, the nearest
value beyond it, and its acceleration is zero. -/
theorem C77_steady_partial (zs : List K) (us : List V) (hz : zs.Pairwise (· < ·)) (hl : us.length = zs.length)
    (hn : 1 ≤ zs.length) (x y z t : K) :
    ∃ u, (steadyGrid zs us).kin x y z t = some (u, 0) ∧ IsInterp zs us z u := by
  obtain ⟨k, f, hk, hk1, hk2, -, -, -, hi⟩ := interpFactor_any (V := V) zs hz (by omega) z
  have e0 : ∀ x : K, interpFactor [(0 : K)] 1 x = some (0, 0) := fun x => by simp [interpFactor]
  have hu := hi us (us[low k]'(by omega)) (us[k]'(by omega)) hl (List.getElem?_eq_getElem (by omega))
    (List.getElem?_eq_getElem (by omega))
  have et : timeFactor 1 (1 : K) t = some (0, 0) := by simp [timeFactor]
  refine ⟨_, ?_, hu⟩
  unfold CurrentGrid.kin steadyGrid
  dsimp only
  rw [e0, e0, et, hk]
  simp only [Option.bind_eq_bind, Option.bind_some]
  have c1 : ∀ i, i < zs.length → ((us.map fun u => [u])[i]?.bind fun r => r[0]?) = us[i]? := by
    intro i hi
    rw [List.getElem?_map, List.getElem?_eq_getElem (by omega)]; simp
  have c2 : ∀ i, i < zs.length → ((us.map fun _ => [(0 : V)])[i]?.bind fun r => r[0]?) = some 0 := by
    intro i hi
    rw [List.getElem?_map, List.getElem?_eq_getElem (by omega)]; simp
  have l0 : low 0 = 0 := rfl
  rw [interp4_column (us.map fun u => [u]) k 0 (us[low k]'(by omega)) (us[k]'(by omega))
      (us[low k]'(by omega)) (us[k]'(by omega)) f 0
      (by rw [l0, c1 _ hk2, List.getElem?_eq_getElem (by omega)])
      (by rw [l0, c1 _ hk1, List.getElem?_eq_getElem (by omega)])
      (by rw [c1 _ hk2, List.getElem?_eq_getElem (by omega)])
      (by rw [c1 _ hk1, List.getElem?_eq_getElem (by omega)]),
    interp4_column (us.map fun _ => [(0 : V)]) k 0 0 0 0 0 f 0 (by rw [l0, c2 _ hk2]) (by rw [l0, c2 _ hk1])
      (c2 _ hk2) (c2 _ hk1)]
  simp only [Option.bind_some, Option.pure_def, lerp_self]

/-- A profile of three depths, at a depth between two of them and at one below them. -/
example : (steadyGrid [(-100 : ℚ), -50, 0] [(0 : ℚ), 1, 2]).kin 7 8 (-75) 3 = some (1 / 2, 0) ∧
    (steadyGrid [(-100 : ℚ), -50, 0] [(0 : ℚ), 1, 2]).kin 7 8 (-200) 3 = some (0, 0) := by decide +kernel

/-- **C77, profiles given from the surface down: false.** The depths are not sorted: for a
current which is one at the surface and zero ten below, the answer at ten below, and
everywhere, is the current at the surface. -/
theorem C77_descending_false (z : ℚ) (hz : z ≤ 0) :
    (steadyGrid [(0 : ℚ), -10] [(1 : ℚ), 0]).kin 0 0 z 0 = some (1, 0) := by
  have e : interpFactor [(0 : ℚ), -10] 1 z = some (1, 0) := by
    simp [interpFactor, hz]
  have e0 : interpFactor [(0 : ℚ)] 1 0 = some (0, 0) := by decide +kernel
  have et : timeFactor 1 (1 : ℚ) 0 = some (0, 0) := by decide +kernel
  unfold CurrentGrid.kin steadyGrid
  dsimp only
  rw [e0, et, e]
  decide +kernel

/-! ## Time dependent profiles -/

theorem dynamicRow_spec (times : List K) (row : List V) (hinc : Inc times) (hn : 2 ≤ times.length)
    (hl : row.length = times.length) (dt : K) (hdt : 0 < dt) (is : List ℕ) (his : is.Pairwise (· < ·)) (j : ℕ)
    (hj0 : startIdx times.length j = 1 ∨ ∃ (hs : startIdx times.length j - 1 < times.length),
      ∀ i ∈ is, times[startIdx times.length j - 1] ≤ (i : K) * dt) :
    ∃ l, dynamicRow times row dt j is = some l ∧ l.length = is.length ∧
      ∀ (n i : ℕ) (v : V), is[n]? = some i → l[n]? = some v → IsInterp times row ((i : K) * dt) v := by
  induction is generalizing j with
  | nil => exact ⟨[], rfl, rfl, by simp⟩
  | cons i is ih =>
    obtain ⟨j1, f, hj, e, hj1, hf0, hf1, hx⟩ := interpFactor_spec times hinc hn j ((i : K) * dt) (by
      rcases hj0 with h | ⟨hs, h⟩
      · exact Or.inl h
      · exact Or.inr ⟨hs, h i (by simp)⟩)
    rw [List.pairwise_cons] at his
    have hst : startIdx times.length j1 = j1 := by
      unfold startIdx; simp only; split <;> split <;> omega
    obtain ⟨l, el, hll, hi⟩ := ih his.2 j1 (by
      by_cases h1 : j1 = 1
      · left; rw [hst, h1]
      · right
        refine ⟨by omega, ?_⟩
        intro i' hi'
        simp only [hst]
        have hpos : times[j1 - 1]'(by omega) ≤
            clamp (times[0]'(by omega)) (times[times.length - 1]'(by omega)) ((i : K) * dt) := by
          rw [← hx]
          have := Inc.lt hinc (show j1 - 1 < j1 by omega) hj
          nlinarith
        have h0 : times[0]'(by omega) < times[j1 - 1]'(by omega) := Inc.lt hinc (by omega) (by omega)
        have h2 : times[j1 - 1]'(by omega) ≤ (i : K) * dt := by
          unfold clamp at hpos
          rcases le_max_iff.mp hpos with h | h
          · exact absurd h (not_le.mpr h0)
          · exact le_trans h (min_le_left _ _)
        have h3 : (i : K) ≤ (i' : K) := by exact_mod_cast (his.1 i' hi').le
        exact le_trans h2 (mul_le_mul_of_nonneg_right h3 hdt.le))
    have lv : ∀ (a b : V), lerp a b f = a + f • (b - a) := by
      intro a b; simp only [lerp]; module
    refine ⟨lerp (row[j1 - 1]'(by omega)) (row[j1]'(by omega)) f :: l, ?_, by simp [hll], ?_⟩
    · simp only [dynamicRow, e, Option.bind_eq_bind, Option.bind_some, Option.pure_def]
      rw [if_neg (by omega), List.getElem?_eq_getElem (by omega), List.getElem?_eq_getElem (by omega)]
      simp only [Option.bind_some, el]
    · intro n i' v hi' hv
      cases n with
      | zero =>
        simp only [List.getElem?_cons_zero, Option.some.injEq] at hi' hv
        subst hi' hv
        rw [lv]
        exact chord_value times row hinc hl j1 f hj hj1 hf0 hf1 _ hx
      | succ n =>
        simp only [List.getElem?_cons_succ] at hi' hv
        exact hi n i' v hi' hv

theorem mapM_rows (times : List K) (hinc : Inc times) (hn : 2 ≤ times.length) (dt : K) (hdt : 0 < dt) (nt : ℕ)
    (rows : List (List V)) (hr : ∀ r ∈ rows, r.length = times.length) :
    ∃ v, (rows.mapM fun row => dynamicRow times row dt 1 (List.range nt)) = some v ∧
      v.length = rows.length ∧ ∀ (k : ℕ) (row l : List V), rows[k]? = some row → v[k]? = some l →
        l.length = nt ∧ ∀ (m : ℕ) (a : V), l[m]? = some a → IsInterp times row ((m : K) * dt) a := by
  induction rows with
  | nil => exact ⟨[], by simp, rfl, by simp⟩
  | cons row rows ih =>
    obtain ⟨v, ev, hvl, hv⟩ := ih fun r hr' => hr r (List.mem_cons_of_mem _ hr')
    obtain ⟨l, el, hll, hl⟩ := dynamicRow_spec times row hinc hn (hr row (by simp)) dt hdt (List.range nt)
      List.pairwise_lt_range 1 (by left; unfold startIdx; simp only; split <;> split <;> omega)
    refine ⟨l :: v, ?_, by simp [hvl], ?_⟩
    · rw [List.mapM_cons, el, ev]; rfl
    · intro k row' l' h1 h2
      cases k with
      | zero =>
        simp only [List.getElem?_cons_zero, Option.some.injEq] at h1 h2
        subst h1 h2
        rw [List.length_range] at hll
        refine ⟨hll, fun m a ha => hl m m a ?_ ha⟩
        have := (List.getElem?_eq_some_iff.mp ha).1
        rw [List.getElem?_range (by omega)]
      | succ k =>
        simp only [List.getElem?_cons_succ] at h1 h2
        exact hv k row' l' h1 h2

/-- The profile at one time: a value for each depth, on the interpolation of its row. -/
def ProfileAt (times : List K) (rows : List (List V)) (t : K) (p : List V) : Prop :=
  p.length = rows.length ∧ ∀ (k : ℕ) (row : List V) (v : V), rows[k]? = some row → p[k]? = some v →
    IsInterp times row t v

/-- **C77 (time dependent).** For every file with increasing depths and times, two times or
more, the last one not negative, and a value for each: the grid is built, with the smallest
interval of the file; and at any place and at any time in it (before its last sample), the
current is the linear interpolation in time of the profiles of the two multiples of the
interval around it, interpolated at the depth, and the acceleration is zero. -/
theorem C77_dynamic_partial (zs times : List K) (rows : List (List V)) (hz : zs.Pairwise (· < ·))
    (ht : times.Pairwise (· < ·)) (hnz : 1 ≤ zs.length) (hnt : 2 ≤ times.length) (hlr : rows.length = zs.length)
    (hr : ∀ r ∈ rows, r.length = times.length) (last : K) (hlast : times.getLast? = some last) (h0 : 0 ≤ last) :
    ∃ (g : CurrentGrid K V) (dt : K), dynamicGrid zs times rows = some g ∧ IsMinDiff times dt ∧ 0 < dt ∧
      ∀ (x y z t : K), 0 ≤ t → ∀ m : ℕ, (m : K) * dt ≤ t → t < ((m : K) + 1) * dt → ((m : K) + 1) * dt ≤ last →
        m < 2 ^ 32 - 1 →
        ∃ (p q : List V) (a b : V), ProfileAt times rows ((m : K) * dt) p ∧
          ProfileAt times rows (((m : K) + 1) * dt) q ∧ IsInterp zs p z a ∧ IsInterp zs q z b ∧
          g.kin x y z t = some (lerp a b (t / dt - m), 0) := by
  obtain ⟨ta, tb, tt, rfl⟩ : ∃ a b t, times = a :: b :: t := by
    rcases times with _ | ⟨a, _ | ⟨b, t⟩⟩
    · simp at hnt
    · simp at hnt
    · exact ⟨a, b, t, rfl⟩
  obtain ⟨dt, hd, hmin⟩ := minDiff_spec ta tb tt
  generalize htimes : ta :: tb :: tt = times at *
  have hdt := (hmin.pos_iff _ _).mpr ht
  have hq : 0 ≤ last / dt := div_nonneg h0 hdt.le
  obtain ⟨v, ev, hvl, hv⟩ := mapM_rows times ht hnt dt hdt (⌊last / dt⌋₊ + 1) rows hr
  refine ⟨{ px := [0], py := [0], pz := zs, nt := ⌊last / dt⌋₊ + 1, dt := dt
            vel := [[v]]
            acc := [[v.map fun r => r.map fun _ => 0]] }, dt, ?_, hmin, hdt, ?_⟩
  · unfold dynamicGrid
    rw [hd, hlast]
    simp only
    rw [if_neg hdt.ne', if_neg (not_lt.mpr hq), ev]
    rfl
  intro x y z t ht0 m hm1 hm2 hm3 hm32
  obtain ⟨k, f, hk, hk1, hk2, -, -, -, hi⟩ := interpFactor_any (V := V) zs hz (by omega) z
  have e0 : ∀ x : K, interpFactor [(0 : K)] 1 x = some (0, 0) := fun x => by simp [interpFactor]
  have hmf : ⌊t / dt⌋₊ = m := by
    rw [Nat.floor_eq_iff (div_nonneg ht0 hdt.le), le_div_iff₀ hdt, div_lt_iff₀ hdt]
    exact ⟨hm1, hm2⟩
  have hmn : m + 1 ≤ ⌊last / dt⌋₊ := by
    apply Nat.le_floor
    rw [le_div_iff₀ hdt]
    push_cast; exact hm3
  have et : timeFactor (⌊last / dt⌋₊ + 1) dt t = some (m + 1, t / dt - m) := by
    rw [timeFactor_some _ dt t (by omega) (div_nonneg ht0 hdt.le) (by rw [hmf]; exact hm32), hmf,
      Nat.mod_eq_of_lt (by omega)]
  have hrow : ∀ i (hi : i < zs.length), (v[i]'(by omega)).length = ⌊last / dt⌋₊ + 1 ∧
      ∀ (m : ℕ) (a : V), (v[i]'(by omega))[m]? = some a → IsInterp times (rows[i]'(by omega)) ((m : K) * dt) a :=
    fun i hi => hv i _ _ (List.getElem?_eq_getElem (by omega)) (List.getElem?_eq_getElem (by omega))
  have hlm : low (m + 1) = m := by simp [low]
  -- the profiles
  let prof : ℕ → List V := fun w => v.map fun r => r.getD w 0
  have hpl : ∀ w, (prof w).length = zs.length := fun w => by simp only [prof, List.length_map]; omega
  have hent : ∀ w i (hi : i < zs.length) (hw : w < ⌊last / dt⌋₊ + 1),
      (v[i]?.bind fun r => r[w]?) = some ((prof w)[i]'(by rw [hpl]; exact hi)) := by
    intro w i hi hw
    rw [List.getElem?_eq_getElem (by omega), Option.bind_some,
      List.getElem?_eq_getElem (by rw [(hrow i hi).1]; exact hw)]
    simp only [prof, List.getElem_map, List.getD_eq_getElem?_getD]
    rw [List.getElem?_eq_getElem (by rw [(hrow i hi).1]; exact hw)]
    rfl
  have hprof : ∀ w, w < ⌊last / dt⌋₊ + 1 → ProfileAt times rows ((w : K) * dt) (prof w) := by
    intro w hw
    refine ⟨by rw [hpl, hlr], fun i row a hrw ha => ?_⟩
    have hil : i < zs.length := by rw [← hpl w]; exact (List.getElem?_eq_some_iff.mp ha).1
    have hrw' : rows[i]'(by omega) = row := by
      rw [List.getElem?_eq_getElem (by omega)] at hrw; exact Option.some.inj hrw
    rw [← hrw']
    apply (hrow i hil).2 w a
    have := hent w i hil hw
    rw [List.getElem?_eq_getElem (by omega), Option.bind_some] at this
    rw [this]
    rw [List.getElem?_eq_getElem (by rw [hpl]; exact hil)] at ha
    exact ha
  have hcol := fun w => hi (prof w) ((prof w)[low k]'(by rw [hpl]; exact hk2)) ((prof w)[k]'(by rw [hpl]; exact hk1))
    (hpl w) (List.getElem?_eq_getElem _) (List.getElem?_eq_getElem _)
  refine ⟨prof m, prof (m + 1), _, _, hprof m (by omega), ?_, hcol m, hcol (m + 1), ?_⟩
  · have := hprof (m + 1) (by omega)
    push_cast at this; exact this
  · unfold CurrentGrid.kin
    dsimp only
    rw [e0, e0, et, hk]
    simp only [Option.bind_eq_bind, Option.bind_some]
    have hz0 : ∀ w i (hi : i < zs.length) (hw : w < ⌊last / dt⌋₊ + 1),
        ((v.map fun r => r.map fun _ => (0 : V))[i]?.bind fun r => r[w]?) = some 0 := by
      intro w i hi hw
      rw [List.getElem?_map, List.getElem?_eq_getElem (by omega)]
      simp only [Option.map_some, Option.bind_some, List.getElem?_map]
      rw [List.getElem?_eq_getElem (by rw [(hrow i hi).1]; exact hw)]
      rfl
    rw [interp4_column v k (m + 1) _ _ _ _ f (t / dt - m) (by rw [hlm]; exact hent m _ hk2 (by omega))
        (by rw [hlm]; exact hent m _ hk1 (by omega)) (hent (m + 1) _ hk2 (by omega))
        (hent (m + 1) _ hk1 (by omega)),
      interp4_column (v.map fun r => r.map fun _ => (0 : V)) k (m + 1) 0 0 0 0 f (t / dt - m)
        (by rw [hlm]; exact hz0 m _ hk2 (by omega)) (by rw [hlm]; exact hz0 m _ hk1 (by omega))
        (hz0 (m + 1) _ hk2 (by omega)) (hz0 (m + 1) _ hk1 (by omega))]
    simp only [Option.bind_some, Option.pure_def, lerp_self]

/-- Two depths and times 0, 10 and 20: half way in depth and time. -/
example : ((dynamicGrid [(-10 : ℚ), 0] [0, 10, 20] [[(0 : ℚ), 0, 0], [0, 4, 8]]).bind fun g =>
    g.kin 3 4 (-5) 15) = some (3, 0) := by decide +kernel

/-- **C77, files whose times are not evenly spaced: false.** With the times 0, 1 and 2.5 and
the currents 0, 0 and 3 the samples are at 0, 1 and 2, and from 2 on the answer is that of
the beginning of the file: at 2.25 and at 2.5 it is zero, instead of 2.5 and 3. -/
theorem C77_uneven_false :
    ((dynamicGrid [(0 : ℚ)] [0, 1, 5 / 2] [[(0 : ℚ), 0, 3]]).bind fun g => g.kin 0 0 0 (9 / 4)) = some (0, 0) ∧
    ((dynamicGrid [(0 : ℚ)] [0, 1, 5 / 2] [[(0 : ℚ), 0, 3]]).bind fun g => g.kin 0 0 0 (5 / 2)) = some (0, 0) := by
  decide +kernel

/-- **C77, times after the last one: false.** The documentation says that the nearest value
is used; the profiles are repeated instead: ten seconds after the end of a file of 20
seconds the answer is neither the last value nor between the last values. -/
theorem C77_after_end_false :
    ((dynamicGrid [(0 : ℚ)] [0, 10, 20] [[(0 : ℚ), 4, 8]]).bind fun g => g.kin 0 0 0 20) = some (0, 0) ∧
    ((dynamicGrid [(0 : ℚ)] [0, 10, 20] [[(0 : ℚ), 4, 8]]).bind fun g => g.kin 0 0 0 30) = some (0, 0) ∧
    ((dynamicGrid [(0 : ℚ)] [0, 10, 20] [[(0 : ℚ), 4, 8]]).bind fun g => g.kin 0 0 0 35) = some (2, 0) := by
  decide +kernel

/-- **C77, one time only: false.** The construction reads outside of the tables. -/
theorem C77_one_time_false (zs : List K) (t : K) (rows : List (List V)) : dynamicGrid zs [t] rows = none := by
  simp [dynamicGrid, minDiff]

end MD.Waves
