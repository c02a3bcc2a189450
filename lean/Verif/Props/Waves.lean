import Verif.Lemmas.Waves
import Mathlib.Data.Rat.Floor
import Mathlib.Tactic.NormNum
import Mathlib.Tactic.Abel

/-!
# Properties C23, C24, C25, C58, C59, C60: water kinematics
-/

set_option linter.unusedSimpArgs false
set_option linter.unusedSectionVars false

namespace MD.Waves

open MD.Interp

variable {K V : Type} [Field K] [LinearOrder K] [IsStrictOrderedRing K] [AddCommGroup V] [Module K V]

/-! ## C23: look-ups in the wave grid -/

/-- What `allocateKinematicArrays` and the readers of grids establish: increasing axes and
arrays of their sizes. -/
structure WaveGrid.WF (g : WaveGrid K V) : Prop where
  ix : Inc g.px
  iy : Inc g.py
  iz : Inc g.pz
  nx : 0 < g.px.length
  ny : 0 < g.py.length
  nz : 0 < g.pz.length
  nt : 0 < g.nt
  dt : 0 < g.dt
  zetas : Shape3 g.px.length g.py.length g.nt g.zetas
  vel : Shape4 g.px.length g.py.length g.pz.length g.nt g.vel
  acc : Shape4 g.px.length g.py.length g.pz.length g.nt g.acc
  pdyn : Shape4 g.px.length g.py.length g.pz.length g.nt g.pdyn

theorem interp3_gt {nx ny nz : ℕ} {v : List (List (List K))} (h : Shape3 nx ny nz v) {i j k : ℕ}
    (hi : i < nx) (hj : j < ny) (hk : k < nz) (fx fy fz b : K) (hx : 0 ≤ fx ∧ fx ≤ 1)
    (hy : 0 ≤ fy ∧ fy ≤ 1) (hz : 0 ≤ fz ∧ fz ≤ 1)
    (hb : ∀ i j k e, get3 v i j k = some e → b < e) :
    ∃ e, interp3 v i j k fx fy fz = some e ∧ b < e := by
  refine ⟨_, interp3_eq h hi hj hk fx fy fz, ?_⟩
  have c : ∀ {a b' c}, a < nx → b' < ny → c < nz → b < at3 v a b' c := fun ha hb' hc =>
    hb _ _ _ _ (h.get ha hb' hc)
  have hi' := low_lt hi
  have hj' := low_lt hj
  have hk' := low_lt hk
  apply lerp_gt _ _ _ _ hz.1 hz.2 <;> apply lerp_gt _ _ _ _ hy.1 hy.2 <;>
    apply lerp_gt _ _ _ _ hx.1 hx.2 <;> exact c ‹_› ‹_› ‹_›

/-- the time index is inside of the record -/
theorem timeFactor_range [FloorSemiring K] (nt : ℕ) (dt t : K) (hn : 0 < nt) (h0 : 0 ≤ t / dt)
    (hb : ⌊t / dt⌋₊ < 2 ^ 32 - 1) :
    ∃ it ft, timeFactor nt dt t = some (it, ft) ∧ it < nt ∧ 0 ≤ ft ∧ ft ≤ 1 := by
  by_cases h : 1 < nt
  · refine ⟨_, _, timeFactor_some nt dt t h h0 hb, Nat.mod_lt _ hn, ?_, ?_⟩
    · have := Nat.floor_le h0; linarith
    · have := Nat.lt_floor_add_one (t / dt); linarith
  · exact ⟨0, 0, by unfold timeFactor; rw [if_neg h], hn, le_refl _, zero_le_one⟩

theorem stretch_some (avg bottom elev z : K) (h : bottom < elev) : ∃ s, stretch avg bottom elev z = some s := by
  unfold stretch
  simp only
  rw [if_neg (by intro e; linarith [sub_eq_zero.mp e])]
  split <;> exact ⟨_, rfl⟩

/-- **C23 (stretching).** The depth at which the grid is looked up: the height of the point over the
bed, as a fraction of the height of the column, is that of the result over the (average) bed, as a
fraction of the average depth; the bed goes to the average bed, the surface and what is above to
the still water level. -/
theorem C23_stretch (avg bottom elev z s : K) (ha : avg < 0) (h : bottom < elev)
    (hs : stretch avg bottom elev z = some s) :
    (z ≤ elev → (s - avg) / (0 - avg) = (z - bottom) / (elev - bottom)) ∧ (elev ≤ z → s = 0) ∧
    s ≤ 0 := by
  have hd : 0 < elev - bottom := sub_pos.mpr h
  unfold stretch at hs
  dsimp only at hs
  rw [if_neg hd.ne'] at hs
  have key : -avg * (z - bottom) / (elev - bottom) + avg
      = -avg * ((z - elev) / (elev - bottom)) := by
    field_simp
    ring
  have hav : (0 : K) < -avg := neg_pos.mpr ha
  rw [key] at hs
  by_cases hz : 0 < -avg * ((z - elev) / (elev - bottom))
  · rw [if_pos hz] at hs
    have h1 := (mul_pos_iff_of_pos_left hav).mp hz
    have h2 := (div_pos_iff_of_pos_right hd).mp h1
    cases hs
    exact ⟨fun hle => by linarith, fun _ => rfl, le_refl _⟩
  · rw [if_neg hz] at hs
    cases hs
    refine ⟨fun _ => ?_, fun hle => ?_, not_lt.mp hz⟩
    · have : (0 : K) - avg ≠ 0 := by rw [zero_sub]; exact hav.ne'
      have := hd.ne'
      field_simp
      ring
    · have h1 : 0 ≤ (z - elev) / (elev - bottom) := div_nonneg (by linarith) hd.le
      exact le_antisymm (not_lt.mp hz) (mul_nonneg hav.le h1)

example : stretch (-100 : ℚ) (-50) 10 (-20) = some (-50) := by norm_num [stretch]

/-- **C23 (in range).** For every grid, position and time from zero on (such that the
number of samples fits in the integer type), as long as the sea surface is above the bed,
all look-ups are inside of the tables. -/
theorem C23_in_range [FloorSemiring K] (g : WaveGrid K V) (hg : g.WF) (x y z t bottom avg : K)
    (ht : 0 ≤ t) (hb : ⌊t / g.dt⌋₊ < 2 ^ 32 - 1)
    (hwet : ∀ i j k e, get3 g.zetas i j k = some e → bottom < e) :
    ∃ k, g.kin x y z t bottom avg = some k := by
  obtain ⟨ix, fx, e1, lx, -, fx0, fx1, -, -⟩ := interpFactor_any (V := K) g.px hg.ix hg.nx x
  obtain ⟨iy, fy, e2, ly, -, fy0, fy1, -, -⟩ := interpFactor_any (V := K) g.py hg.iy hg.ny y
  obtain ⟨it, ft, e3, lt, ft0, ft1⟩ := timeFactor_range g.nt g.dt t hg.nt (div_nonneg ht hg.dt.le) hb
  obtain ⟨elev, e4, hel⟩ := interp3_gt hg.zetas lx ly lt fx fy ft bottom ⟨fx0, fx1⟩ ⟨fy0, fy1⟩
    ⟨ft0, ft1⟩ hwet
  obtain ⟨s, e5⟩ := stretch_some avg bottom elev z hel
  obtain ⟨iz, fz, e6, lz, -, -, -, -, -⟩ := interpFactor_any (V := K) g.pz hg.iz hg.nz s
  simp only [WaveGrid.kin, e1, e2, e3, e4, e5, e6, Option.bind_eq_bind, Option.bind_some,
    interp4_eq hg.vel lx ly lz lt, interp4_eq hg.acc lx ly lz lt, interp4_eq hg.pdyn lx ly lz lt,
    Option.pure_def]
  exact ⟨_, rfl⟩

/-- **C23 (periodic).** The kinematics repeat with the duration of the record, and they are
constant in time if there is one sample. -/
theorem C23_periodic [FloorSemiring K] (g : WaveGrid K V) (hg : g.WF) (x y z t bottom avg : K)
    (ht : 0 ≤ t) (hb : ⌊(t + g.nt * g.dt) / g.dt⌋₊ < 2 ^ 32 - 1) :
    g.kin x y z (t + g.nt * g.dt) bottom avg = g.kin x y z t bottom avg := by
  have hq : (t + g.nt * g.dt) / g.dt = t / g.dt + (g.nt : K) := by
    have := hg.dt.ne'
    field_simp
  have h0 : 0 ≤ t / g.dt := div_nonneg ht hg.dt.le
  have hfl : ⌊t / g.dt + (g.nt : K)⌋₊ = ⌊t / g.dt⌋₊ + g.nt := Nat.floor_add_natCast h0 _
  suffices h : timeFactor g.nt g.dt (t + g.nt * g.dt) = timeFactor g.nt g.dt t by
    unfold WaveGrid.kin
    rw [h]
  by_cases h1 : 1 < g.nt
  · have hb' : ⌊t / g.dt⌋₊ < 2 ^ 32 - 1 := by rw [hq, hfl] at hb; omega
    rw [timeFactor_some _ _ _ h1 (by rw [hq]; positivity) hb, timeFactor_some _ _ _ h1 h0 hb', hq, hfl]
    congr 2
    · rw [show ⌊t / g.dt⌋₊ + g.nt + 1 = ⌊t / g.dt⌋₊ + 1 + g.nt by omega, Nat.add_mod_right]
    · push_cast; ring
  · unfold timeFactor
    rw [if_neg h1, if_neg h1]

/-- **C23 (values).** What the look-up returns.  With `m = floor (t / dt)` the elevation is
on the chord of the bilinear interpolations of the samples `m` and `m + 1` (modulo the
record), and the velocity, acceleration and pressure on the chord of the trilinear ones,
evaluated at the stretched depth `s` — except in the last interval of the record, where
the first sample is used alone. -/
theorem C23_values_partial [FloorSemiring K] (g : WaveGrid K V) (hg : g.WF) (x y z t bottom avg : K)
    (ht : 0 ≤ t) (hb : ⌊t / g.dt⌋₊ < 2 ^ 32 - 1) (hn : 1 < g.nt) (k : Kin K V)
    (hk : g.kin x y z t bottom avg = some k) (r r' : ℕ) (f : K)
    (hr : ⌊t / g.dt⌋₊ % g.nt + 1 < g.nt ∧ r = ⌊t / g.dt⌋₊ % g.nt ∧ r' = r + 1 ∧
        f = t / g.dt - (⌊t / g.dt⌋₊ : K) ∨
      ⌊t / g.dt⌋₊ % g.nt + 1 = g.nt ∧ r = 0 ∧ r' = 0) :
    (∀ d d', IsBilinear g.px g.py (fun i j => at3 g.zetas i j r) x y d →
      IsBilinear g.px g.py (fun i j => at3 g.zetas i j r') x y d' → k.zeta = (1 - f) * d + f * d') ∧
    ∃ s, stretch avg bottom k.zeta z = some s ∧
      (∀ d d', IsTrilinear g.px g.py g.pz (fun i j k => at4 g.vel i j k r) x y s d →
        IsTrilinear g.px g.py g.pz (fun i j k => at4 g.vel i j k r') x y s d' →
        k.vel = (1 - f) • d + f • d') ∧
      (∀ d d', IsTrilinear g.px g.py g.pz (fun i j k => at4 g.acc i j k r) x y s d →
        IsTrilinear g.px g.py g.pz (fun i j k => at4 g.acc i j k r') x y s d' →
        k.acc = (1 - f) • d + f • d') ∧
      (∀ d d', IsTrilinear g.px g.py g.pz (fun i j k => at4 g.pdyn i j k r) x y s d →
        IsTrilinear g.px g.py g.pz (fun i j k => at4 g.pdyn i j k r') x y s d' →
        k.pdyn = (1 - f) * d + f * d') := by
  obtain ⟨ix, fx, e1, lx, -, fx0, fx1, -, -⟩ := interpFactor_any (V := K) g.px hg.ix hg.nx x
  obtain ⟨iy, fy, e2, ly, -, fy0, fy1, -, -⟩ := interpFactor_any (V := K) g.py hg.iy hg.ny y
  have e3 := timeFactor_some g.nt g.dt t hn (div_nonneg ht hg.dt.le) hb
  set m := ⌊t / g.dt⌋₊ with hm
  set f0 := t / g.dt - (m : K) with hf0
  have lt : (m + 1) % g.nt < g.nt := Nat.mod_lt _ hg.nt
  have hit : low ((m + 1) % g.nt) = r ∧ (m + 1) % g.nt = r' ∧ (r = r' ∨ f = f0) := by
    rcases hr with ⟨h1, h2, h3, h4⟩ | ⟨h1, h2, h3⟩
    · have : (m + 1) % g.nt = m % g.nt + 1 := by
        rw [Nat.add_mod, Nat.mod_eq_of_lt (a := 1) hn, Nat.mod_eq_of_lt h1]
      rw [this]
      refine ⟨by simp [low, h2], by omega, Or.inr h4⟩
    · have : (m + 1) % g.nt = 0 := by
        rw [Nat.add_mod, Nat.mod_eq_of_lt (a := 1) hn, h1, Nat.mod_self]
      rw [this]
      exact ⟨by simp [low, h2], h3.symm, Or.inl (by omega)⟩
  obtain ⟨w1, w2, w3⟩ := hit
  have hl : ∀ {W : Type} [AddCommGroup W] [Module K W] (F : ℕ → W),
      lerp (F r) (F r') f0 = (1 - f) • F r + f • F r' := by
    intro W _ _ F
    rcases w3 with h | h
    · rw [h, lerp_self]; module
    · rw [h]; rfl
  have e4 := interp3_eq hg.zetas lx ly lt fx fy f0
  unfold WaveGrid.kin at hk
  simp only [e1, e2, e3, e4, Option.bind_eq_bind, Option.bind_some] at hk
  rw [w1, w2] at hk
  rw [w2] at lt
  set elev := lerp (bi (fun a b => at3 g.zetas a b r) ix iy fx fy)
    (bi (fun a b => at3 g.zetas a b r') ix iy fx fy) f0 with helev
  cases e5 : stretch avg bottom elev z with
  | none => rw [e5] at hk; simp at hk
  | some s =>
    rw [e5] at hk
    obtain ⟨iz, fz, e6, lz, -, -, -, -, -⟩ := interpFactor_any (V := K) g.pz hg.iz hg.nz s
    have hlow : low r' = r := by rw [← w2]; exact w1
    simp only [e6, Option.bind_some, interp4_eq hg.vel lx ly lz lt, interp4_eq hg.acc lx ly lz lt,
      interp4_eq hg.pdyn lx ly lz lt, Option.pure_def, Option.some.injEq, hlow] at hk
    subst hk
    refine ⟨?_, s, e5, ?_, ?_, ?_⟩
    · intro d d' h1 h2
      rw [bilinear_iff _ _ hg.ix hg.iy hg.nx hg.ny _ _ _ ix iy fx fy e1 e2] at h1 h2
      rw [h1, h2]
      exact hl (fun r => bi (fun a b => at3 g.zetas a b r) ix iy fx fy)
    · intro d d' h1 h2
      rw [trilinear_iff _ _ _ hg.ix hg.iy hg.iz hg.nx hg.ny hg.nz _ _ _ _ ix iy iz fx fy fz e1 e2 e6]
        at h1 h2
      rw [h1, h2]
      exact hl (fun r => tri (fun a b c => at4 g.vel a b c r) ix iy iz fx fy fz)
    · intro d d' h1 h2
      rw [trilinear_iff _ _ _ hg.ix hg.iy hg.iz hg.nx hg.ny hg.nz _ _ _ _ ix iy iz fx fy fz e1 e2 e6]
        at h1 h2
      rw [h1, h2]
      exact hl (fun r => tri (fun a b c => at4 g.acc a b c r) ix iy iz fx fy fz)
    · intro d d' h1 h2
      rw [trilinear_iff _ _ _ hg.ix hg.iy hg.iz hg.nx hg.ny hg.nz _ _ _ _ ix iy iz fx fy fz e1 e2 e6]
        at h1 h2
      rw [h1, h2]
      exact hl (fun r => tri (fun a b c => at4 g.pdyn a b c r) ix iy iz fx fy fz)

/-- a grid with two samples, of elevations 0 and 10 -/
def demo : WaveGrid ℚ ℚ :=
  { px := [0], py := [0], pz := [-100, 0], nt := 2, dt := 1, zetas := [[[0, 10]]],
    vel := [[[[0, 1], [2, 5]]]], acc := [[[[0, 1], [2, 5]]]], pdyn := [[[[0, 1], [2, 5]]]] }

theorem demo_wf : demo.WF := by
  have h4 : Shape4 1 1 2 2 ([[[[0, 1], [2, 5]]]] : List (List (List (List ℚ)))) := by
    intro i j k w hi hj hk hw
    have : i = 0 := by omega
    have : j = 0 := by omega
    subst i j
    rcases (show k = 0 ∨ k = 1 by omega) with rfl | rfl <;>
      rcases (show w = 0 ∨ w = 1 by omega) with rfl | rfl <;> exact ⟨_, rfl⟩
  refine ⟨by simp [demo], by simp [demo], by simp [demo], by simp [demo], by simp [demo], by simp [demo],
    by simp [demo], by simp [demo], ?_, h4, h4, h4⟩
  intro i j k hi hj hk
  simp only [demo, List.length_cons, List.length_nil] at hi hj hk
  have : i = 0 := by omega
  have : j = 0 := by omega
  subst i j
  rcases (show k = 0 ∨ k = 1 by omega) with rfl | rfl <;> exact ⟨_, rfl⟩

/-- the elevation of the example: it climbs to ten and stays at zero afterwards -/
theorem demo_zeta (t : ℚ) (h0 : 0 ≤ t) (h2 : t < 2) :
    (demo.kin 0 0 0 t (-100) (-100)).map Kin.zeta = some (if t < 1 then 10 * t else 0) := by
  have hq : t / demo.dt = t := by simp [demo]
  by_cases h1 : t < 1
  · have hf : ⌊t⌋₊ = 0 := Nat.floor_eq_zero.mpr h1
    obtain ⟨k, hk⟩ := C23_in_range demo demo_wf 0 0 0 t (-100) (-100) h0
      (by rw [hq, hf]; norm_num) (by
        intro i j k e he
        rcases i with _ | i <;> rcases j with _ | j <;> rcases k with _ | _ | k <;>
          simp [demo, get3] at he <;> subst he <;> norm_num)
    have := (C23_values_partial demo demo_wf 0 0 0 t (-100) (-100) h0 (by rw [hq, hf]; norm_num)
      (by simp [demo]) k hk 0 1 t (Or.inl ⟨by rw [hq, hf]; simp [demo], by rw [hq, hf]; simp, rfl,
        by rw [hq, hf]; simp⟩)).1
    have b : ∀ F : ℕ → ℕ → ℚ, IsBilinear demo.px demo.py F 0 0 (F 0 0) := by
      intro F
      rw [bilinear_iff demo.px demo.py demo_wf.ix demo_wf.iy demo_wf.nx demo_wf.ny F 0 0 0 0 0 0
        (by simp [demo, interpFactor]) (by simp [demo, interpFactor])]
      simp [bi, lerp, low]
    have := this _ _ (b _) (b _)
    rw [hk, Option.map_some, this, if_pos h1]
    simp [at3, get3, demo]; ring
  · have hf : ⌊t⌋₊ = 1 := by
      rw [Nat.floor_eq_iff h0]; constructor <;> push_cast <;> linarith
    obtain ⟨k, hk⟩ := C23_in_range demo demo_wf 0 0 0 t (-100) (-100) h0
      (by rw [hq, hf]; norm_num) (by
        intro i j k e he
        rcases i with _ | i <;> rcases j with _ | j <;> rcases k with _ | _ | k <;>
          simp [demo, get3] at he <;> subst he <;> norm_num)
    have := (C23_values_partial demo demo_wf 0 0 0 t (-100) (-100) h0 (by rw [hq, hf]; norm_num)
      (by simp [demo]) k hk 0 0 t (Or.inr ⟨by rw [hq, hf]; simp [demo], rfl, rfl⟩)).1
    have b : ∀ F : ℕ → ℕ → ℚ, IsBilinear demo.px demo.py F 0 0 (F 0 0) := by
      intro F
      rw [bilinear_iff demo.px demo.py demo_wf.ix demo_wf.iy demo_wf.nx demo_wf.ny F 0 0 0 0 0 0
        (by simp [demo, interpFactor]) (by simp [demo, interpFactor])]
      simp [bi, lerp, low]
    have := this _ _ (b _) (b _)
    rw [hk, Option.map_some, this, if_neg h1]
    simp [at3, get3, demo]

/-- **C23, continuity in time is false.** In the example the elevation tends to 10 when the
time approaches the last sample of the record, and is 0 there: it jumps by as much as
wanted close to 10 in as short a time as wanted. -/
theorem C23_continuity_false : ∀ ε : ℚ, 0 < ε → ε ≤ 1 → ∃ a b : ℚ,
    (demo.kin 0 0 0 (1 - ε) (-100) (-100)).map Kin.zeta = some a ∧
    (demo.kin 0 0 0 1 (-100) (-100)).map Kin.zeta = some b ∧ a - b = 10 * (1 - ε) := by
  intro ε h0 h1
  refine ⟨_, _, demo_zeta (1 - ε) (by linarith) (by linarith), demo_zeta 1 (by norm_num) (by norm_num), ?_⟩
  rw [if_pos (by linarith), if_neg (lt_irrefl _)]; ring

example : (demo.kin 0 0 0 (1/2) (-100) (-100)).map Kin.zeta = some 5 := by
  rw [demo_zeta _ (by norm_num) (by norm_num), if_pos (by norm_num)]; norm_num

/-! ## C24: external kinematics -/

/-- The kinds of objects that hold nodes. -/
inductive Kind
  | line
  | rod
  | point
  | body
deriving DecidableEq

/-- The value held for a node, given its kind of object, identifier and number. -/
def All.at {X : Type} (a : All X) (k : Kind) (id n : ℕ) : Option X :=
  (match k with
    | .line => a.lines
    | .rod => a.rods
    | .point => a.points
    | .body => a.bodies)[id]? >>= (·[n]?)

/-- the nodes of a list of objects, in order -/
def addr {X : Type} (k : Kind) (rows : List (List X)) : List (Kind × ℕ × ℕ) :=
  rows.zipIdx.flatMap fun r => (List.range r.1.length).map fun n => (k, r.2, n)

/-- All the nodes of a system: lines, rods, points and bodies. -/
def All.nodes {X : Type} (a : All X) : List (Kind × ℕ × ℕ) :=
  addr .line a.lines ++ (addr .rod a.rods ++ (addr .point a.points ++ addr .body a.bodies))

/-- Two stores have a value for the same nodes. -/
def All.SameShape {X Y : Type} (a : All X) (b : All Y) : Prop :=
  a.lines.map List.length = b.lines.map List.length ∧
  a.rods.map List.length = b.rods.map List.length ∧
  a.points.map List.length = b.points.map List.length ∧
  a.bodies.map List.length = b.bodies.map List.length

theorem fillRow_spec {X : Type} (row inp : List X) :
    fillRow row inp = (inp.take row.length ++ row.drop inp.length, inp.drop row.length,
      decide (row.length ≤ inp.length)) := by
  induction row generalizing inp with
  | nil => simp [fillRow]
  | cons x xs ih =>
    cases inp with
    | nil => simp [fillRow]
    | cons u us => simp [fillRow, ih]

theorem fillRows_spec {X : Type} (rows : List (List X)) (inp : List X) :
    (fillRows rows inp).1.flatten =
      inp.take rows.flatten.length ++ rows.flatten.drop inp.length ∧
    (fillRows rows inp).1.map List.length = rows.map List.length ∧
    (fillRows rows inp).2.1 = inp.drop rows.flatten.length ∧
    (fillRows rows inp).2.2 = decide (rows.flatten.length ≤ inp.length) := by
  induction rows generalizing inp with
  | nil => simp [fillRows]
  | cons r rs ih =>
    rw [fillRows]
    simp only [fillRow_spec]
    by_cases h : r.length ≤ inp.length
    · rw [if_pos (by simpa using h)]
      obtain ⟨i1, i2, i3, i4⟩ := ih (inp.drop r.length)
      refine ⟨?_, ?_, ?_, ?_⟩
      · simp only [List.flatten_cons, i1, List.length_append, List.drop_eq_nil_of_le h, List.append_nil,
          List.take_add, List.append_assoc, List.length_drop, List.drop_append]
        simp [List.drop_eq_nil_of_le h]
      · simp only [List.map_cons, i2, List.length_append, List.length_take, List.length_drop]
        congr 1; omega
      · simp only [i3, List.flatten_cons, List.length_append, List.drop_drop]
      · simp only [i4, List.flatten_cons, List.length_append, List.length_drop]
        congr 1
        simp only [eq_iff_iff]
        omega
    · rw [if_neg (by simpa using h)]
      have h' : inp.length ≤ r.length := by omega
      refine ⟨?_, ?_, ?_, ?_⟩
      · simp only [List.flatten_cons, List.length_append]
        rw [List.take_of_length_le h', List.take_of_length_le (by omega), List.drop_append,
          show inp.length - r.length = 0 by omega, List.drop_zero, List.append_assoc]
      · simp only [List.map_cons, List.length_append, List.length_take, List.length_drop]
        congr 1; omega
      · simp only [List.flatten_cons, List.length_append]
        rw [List.drop_eq_nil_of_le h', List.drop_eq_nil_of_le (by omega)]
      · simp only [List.flatten_cons, List.length_append]
        symm
        rw [decide_eq_false_iff_not]
        omega

theorem addr_values {X : Type} (k : Kind) (rows : List (List X)) :
    (addr k rows).map (fun q => rows[q.2.1]? >>= (·[q.2.2]?)) = rows.flatten.map some := by
  unfold addr
  have : ∀ (n : ℕ) (l : List (List X)), (∀ i r, l[i]? = some r → rows[n + i]? = some r) →
      ((l.zipIdx n).flatMap fun r => (List.range r.1.length).map fun m => (k, r.2, m)).map
        (fun q => rows[q.2.1]? >>= (·[q.2.2]?)) = l.flatten.map some := by
    intro n l
    induction l generalizing n with
    | nil => intros; simp
    | cons r l ih =>
      intro h
      rw [List.zipIdx_cons, List.flatMap_cons, List.map_append, ih (n + 1)
        (fun i r' hi => by have := h (i + 1) r' (by simpa using hi); rwa [show n + 1 + i = n + (i + 1) by omega])]
      rw [List.flatten_cons, List.map_append]
      congr 1
      have h0 := h 0 r (by simp)
      rw [Nat.add_zero] at h0
      apply List.ext_getElem (by simp)
      intro m h1 h2
      simp at h1
      simp [h0, h1]
  exact this 0 rows (fun i r h => by simpa using h)

theorem addr_shape {X Y : Type} (k : Kind) (a : List (List X)) (b : List (List Y))
    (h : a.map List.length = b.map List.length) : addr k a = addr k b := by
  unfold addr
  have : ∀ (n : ℕ) (a : List (List X)) (b : List (List Y)), a.map List.length = b.map List.length →
      ((a.zipIdx n).flatMap fun r => (List.range r.1.length).map fun m => (k, r.2, m)) =
      ((b.zipIdx n).flatMap fun r => (List.range r.1.length).map fun m => (k, r.2, m)) := by
    intro n a
    induction a generalizing n with
    | nil => intro b hb; cases b with
      | nil => rfl
      | cons => simp at hb
    | cons r a ih =>
      intro b hb
      cases b with
      | nil => simp at hb
      | cons s b =>
        simp only [List.map_cons, List.cons.injEq] at hb
        rw [List.zipIdx_cons, List.zipIdx_cons, List.flatMap_cons, List.flatMap_cons, ih (n + 1) b hb.2, hb.1]
  exact this 0 a b h

theorem mem_addr {X : Type} (k : Kind) (rows : List (List X)) (q : Kind × ℕ × ℕ) :
    q ∈ addr k rows ↔ q.1 = k ∧ ∃ r, rows[q.2.1]? = some r ∧ q.2.2 < r.length := by
  unfold addr
  simp only [List.mem_flatMap, List.mem_map, List.mem_range, Prod.exists]
  constructor
  · rintro ⟨r, i, hr, n, hn, rfl⟩
    exact ⟨rfl, r, by simpa using List.mk_mem_zipIdx_iff_getElem?.mp hr, hn⟩
  · rintro ⟨h, r, hr, hn⟩
    refine ⟨r, q.2.1, List.mk_mem_zipIdx_iff_getElem?.mpr hr, q.2.2, hn, ?_⟩
    rw [← h]

theorem addr_nodup {X : Type} (k : Kind) (rows : List (List X)) : (addr k rows).Nodup := by
  unfold addr
  have : ∀ (n : ℕ) (a : List (List X)),
      ((a.zipIdx n).flatMap fun r => (List.range r.1.length).map fun m => (k, r.2, m)).Nodup ∧
      ∀ q ∈ ((a.zipIdx n).flatMap fun r => (List.range r.1.length).map fun m => (k, r.2, m)), n ≤ q.2.1 := by
    intro n a
    induction a generalizing n with
    | nil => simp
    | cons r a ih =>
      rw [List.zipIdx_cons, List.flatMap_cons]
      obtain ⟨h1, h2⟩ := ih (n + 1)
      constructor
      · rw [List.nodup_append]
        refine ⟨?_, h1, ?_⟩
        · apply List.Nodup.map _ List.nodup_range
          intro a b h; simpa using h
        · rintro q hq q' hq' rfl
          have := h2 q hq'
          simp only [List.mem_map] at hq
          obtain ⟨m, _, rfl⟩ := hq
          simp at this
      · intro q hq
        rcases List.mem_append.mp hq with h | h
        · simp only [List.mem_map] at h
          obtain ⟨m, _, rfl⟩ := h; exact le_refl _
        · have := h2 q h; omega
  exact (this 0 rows).1

/-- the nodes are listed once each, and they are those that have a value -/
theorem nodes_spec {X : Type} (a : All X) : a.nodes.Nodup ∧
    ∀ k id n, (k, id, n) ∈ a.nodes ↔ (a.at k id n).isSome := by
  constructor
  · unfold All.nodes
    have hk : ∀ {k : Kind} {rows : List (List X)} {q}, q ∈ addr k rows → q.1 = k := fun h =>
      ((mem_addr _ _ _).mp h).1
    refine List.nodup_append.mpr ⟨addr_nodup _ _, List.nodup_append.mpr ⟨addr_nodup _ _,
      List.nodup_append.mpr ⟨addr_nodup _ _, addr_nodup _ _, ?_⟩, ?_⟩, ?_⟩
    · rintro q hq q' hq' rfl
      have := hk hq; have := hk hq'; simp_all
    · rintro q hq q' hq' rfl
      have := hk hq
      rcases List.mem_append.mp hq' with h | h <;> have := hk h <;> simp_all
    · rintro q hq q' hq' rfl
      have := hk hq
      rcases List.mem_append.mp hq' with h | h
      · have := hk h; simp_all
      · rcases List.mem_append.mp h with h | h <;> have := hk h <;> simp_all
  · intro k id n
    unfold All.nodes All.at
    simp only [List.mem_append, mem_addr]
    have : ∀ rows : List (List X), (∃ r, rows[id]? = some r ∧ n < r.length) ↔
        (rows[id]? >>= (·[n]?)).isSome = true := by
      intro rows
      cases h : rows[id]? with
      | none => simp
      | some r => simp
    cases k <;> simp [this]

theorem at_values {X : Type} (a : All X) :
    a.nodes.map (fun q => a.at q.1 q.2.1 q.2.2) = a.visit.map some := by
  unfold All.nodes All.visit
  simp only [List.map_append]
  have h : ∀ (k : Kind) (rows : List (List X)),
      (∀ id n, a.at k id n = (rows[id]? >>= (·[n]?))) →
      (addr k rows).map (fun q => a.at q.1 q.2.1 q.2.2) = rows.flatten.map some := by
    intro k rows hr
    rw [← addr_values k rows]
    apply List.map_congr_left
    intro q hq
    rw [((mem_addr _ _ _).mp hq).1, hr]
  rw [h .line a.lines (fun _ _ => rfl), h .rod a.rods (fun _ _ => rfl), h .point a.points (fun _ _ => rfl),
    h .body a.bodies (fun _ _ => rfl)]

theorem nodes_shape {X Y : Type} (a : All X) (b : All Y) (h : a.SameShape b) : a.nodes = b.nodes := by
  unfold All.nodes
  rw [addr_shape _ _ _ h.1, addr_shape _ _ _ h.2.1, addr_shape _ _ _ h.2.2.1, addr_shape _ _ _ h.2.2.2]

theorem visit_length {X : Type} (a : All X) : a.visit.length =
    a.lines.flatten.length + a.rods.flatten.length + a.points.flatten.length + a.bodies.flatten.length := by
  unfold All.visit; simp only [List.length_append]; omega

/-- what `setAll` leaves, when the two inputs have the same size -/
theorem setAll_visit (k : All (V × V)) (u ud : List V) (h : u.length = ud.length) :
    (setAll k u ud).1.visit = (u.zip ud).take k.visit.length ++ k.visit.drop u.length ∧
    (setAll k u ud).1.SameShape k ∧
    ((setAll k u ud).2 = .ok ↔ k.visit.length ≤ u.length) ∧
    ((setAll k u ud).2 ≠ .ok → (setAll k u ud).2 = .notEnough) := by
  have hz : (u.zip ud).length = u.length := by simp [h]
  rw [← hz]
  generalize hinp : u.zip ud = inp
  obtain ⟨l1, l2, l3, l4⟩ := fillRows_spec k.lines inp
  obtain ⟨r1, r2, r3, r4⟩ := fillRows_spec k.rods (fillRows k.lines inp).2.1
  obtain ⟨p1, p2, p3, p4⟩ := fillRows_spec k.points (fillRows k.rods (fillRows k.lines inp).2.1).2.1
  obtain ⟨b1, b2, b3, b4⟩ := fillRows_spec k.bodies
    (fillRows k.points (fillRows k.rods (fillRows k.lines inp).2.1).2.1).2.1
  unfold setAll
  rw [if_neg (by simpa using h)]
  simp only [hinp]
  rw [visit_length]
  simp only [l3] at r1 r2 r3 r4 p1 p2 p3 p4 b1 b2 b3 b4 ⊢
  simp only [r3] at p1 p2 p3 p4 b1 b2 b3 b4 ⊢
  simp only [p3] at b1 b2 b3 b4 ⊢
  simp only [List.length_drop, List.drop_drop] at *
  set L := k.lines.flatten.length with hL
  set R := k.rods.flatten.length with hR
  set P := k.points.flatten.length with hP
  set B := k.bodies.flatten.length with hB
  set n := inp.length with hn
  rw [l4, r4, p4, b4]
  by_cases c1 : L ≤ n
  · rw [if_neg (by simpa using c1)]
    have d1 : k.lines.flatten.drop n = [] := List.drop_eq_nil_of_le c1
    by_cases c2 : R ≤ n - L
    · rw [if_neg (by simpa using c2)]
      have d2 : k.rods.flatten.drop (n - L) = [] := List.drop_eq_nil_of_le c2
      by_cases c3 : P ≤ n - (L + R)
      · rw [if_neg (by simpa using c3)]
        have d3 : k.points.flatten.drop (n - (L + R)) = [] := List.drop_eq_nil_of_le c3
        refine ⟨?_, ⟨l2, r2, p2, b2⟩, ?_, ?_⟩
        · unfold All.visit
          simp only [l1, r1, p1, b1, d1, d2, d3, List.append_nil, List.drop_append, ← hL, ← hR, ← hP,
            List.nil_append, List.take_add, List.append_assoc, List.drop_drop, Nat.sub_sub]
        · rw [show (L + R + P + B ≤ n) ↔ (B ≤ n - (L + R + P)) by omega]
          by_cases c4 : B ≤ n - (L + R + P)
          · simp [c4]
          · simp [c4]
        · intro hne
          by_cases c4 : B ≤ n - (L + R + P)
          · simp [c4] at hne
          · simp [c4]
      · rw [if_pos (by simpa using c3)]
        have c3' : n - (L + R) ≤ P := by omega
        refine ⟨?_, ⟨l2, r2, p2, rfl⟩, by simp; omega, by simp⟩
        unfold All.visit
        simp only [l1, r1, p1, d1, d2, List.append_nil, List.drop_append, ← hL, ← hR, ← hP,
          List.nil_append, List.take_add, List.append_assoc, List.drop_drop, Nat.sub_sub]
        rw [show n - (L + R + P) = 0 by omega, List.drop_zero,
          List.drop_eq_nil_of_le (as := inp) (i := L + R + P) (by omega), List.take_nil, List.nil_append]
    · rw [if_pos (by simpa using c2)]
      refine ⟨?_, ⟨l2, r2, rfl, rfl⟩, by simp; omega, by simp⟩
      unfold All.visit
      simp only [l1, r1, d1, List.append_nil, List.drop_append, ← hL, ← hR, ← hP,
        List.nil_append, List.take_add, List.append_assoc, List.drop_drop, Nat.sub_sub]
      rw [show n - (L + R) = 0 by omega, show n - (L + R + P) = 0 by omega, List.drop_zero, List.drop_zero,
        List.drop_eq_nil_of_le (as := inp) (i := L + R + P) (by omega),
        List.drop_eq_nil_of_le (as := inp) (i := L + R) (by omega), List.take_nil, List.take_nil,
        List.nil_append, List.nil_append]
  · rw [if_pos (by simpa using c1)]
    refine ⟨?_, ⟨l2, rfl, rfl, rfl⟩, by simp; omega, by simp⟩
    unfold All.visit
    simp only [l1, List.append_nil, List.drop_append, ← hL, ← hR, ← hP,
      List.nil_append, List.take_add, List.append_assoc, List.drop_drop, Nat.sub_sub]
    rw [show n - L = 0 by omega, show n - (L + R) = 0 by omega, show n - (L + R + P) = 0 by omega,
      List.drop_zero, List.drop_zero, List.drop_zero,
      List.drop_eq_nil_of_le (as := inp) (i := L + R + P) (by omega),
      List.drop_eq_nil_of_le (as := inp) (i := L + R) (by omega),
      List.drop_eq_nil_of_le (as := inp) (i := L) (by omega), List.take_nil, List.take_nil, List.take_nil,
      List.nil_append, List.nil_append, List.nil_append]

/-- **C24.** There is one enumeration of all the nodes of all the objects, without
repetitions, such that the coordinates reported are those of its nodes in order, and the
i-th velocity and acceleration passed are stored for its i-th node, whenever at least as
many values as nodes are given. -/
theorem C24_order {C : Type} (pos : All C) (k : All (V × V)) (hshape : pos.SameShape k) :
    ∃ e : List (Kind × ℕ × ℕ), e.Nodup ∧
      (∀ kind id n, (kind, id, n) ∈ e ↔ (pos.at kind id n).isSome) ∧
      pos.visit.map some = e.map (fun q => pos.at q.1 q.2.1 q.2.2) ∧
      ∀ u ud : List V, u.length = ud.length → e.length ≤ u.length →
        (setAll k u ud).2 = .ok ∧
        ∀ (i : ℕ) (q : Kind × ℕ × ℕ) (a b : V), e[i]? = some q → u[i]? = some a → ud[i]? = some b →
          (setAll k u ud).1.at q.1 q.2.1 q.2.2 = some (a, b) := by
  refine ⟨pos.nodes, (nodes_spec pos).1, (nodes_spec pos).2, (at_values pos).symm, ?_⟩
  intro u ud hl hn
  obtain ⟨h1, h2, h3, -⟩ := setAll_visit k u ud hl
  have hlen : pos.nodes.length = k.visit.length := by
    have := congrArg List.length (at_values k)
    rw [List.length_map, List.length_map, ← nodes_shape _ _ hshape] at this
    exact this
  rw [hlen] at hn
  refine ⟨h3.mpr hn, ?_⟩
  intro i q a b hq ha hb
  have hv := at_values (setAll k u ud).1
  rw [nodes_shape _ _ h2, ← nodes_shape _ _ hshape] at hv
  have := congrArg (fun l => l[i]?) hv
  simp only [List.getElem?_map, hq, Option.map_some, h1] at this
  have hi : i < k.visit.length := by
    rw [← hlen]
    exact (List.getElem?_eq_some_iff.mp hq).1
  have hz : (u.zip ud)[i]? = some (a, b) := by
    rw [List.getElem?_zip_eq_some]; exact ⟨ha, hb⟩
  rw [List.getElem?_append_left (by simp only [List.length_take, List.length_zip]; omega),
    List.getElem?_take_of_lt hi, hz] at this
  simpa using this

/-- **C24 (rejection).** Velocities and accelerations of different sizes are rejected and
nothing changes; fewer values than nodes are rejected. -/
theorem C24_rejected (k : All (V × V)) (u ud : List V) :
    (u.length ≠ ud.length → setAll k u ud = (k, .sizesDiffer)) ∧
    (u.length = ud.length → u.length < k.visit.length → (setAll k u ud).2 = .notEnough) := by
  constructor
  · intro h; unfold setAll; rw [if_pos h]
  · intro h h'
    obtain ⟨-, -, h3, h4⟩ := setAll_visit k u ud h
    apply h4
    intro hok
    have := h3.mp hok
    omega

/-- **C24 (rejected input leaves a trace).** When there are not enough values, those given
have already been stored in the first nodes when the error is reported. -/
theorem C24_rejected_modifies (k : All (V × V)) (u ud : List V) (h : u.length = ud.length)
    (h' : u.length < k.visit.length) :
    (setAll k u ud).1.visit = u.zip ud ++ k.visit.drop u.length := by
  rw [(setAll_visit k u ud h).1, List.take_of_length_le (by simp; omega)]

example : setAll (V := ℚ) ⟨[[(0, 0), (0, 0)]], [], [[(0, 0)]], [[(0, 0)]]⟩ [1, 2, 3, 4] [5, 6, 7, 8] =
    (⟨[[(1, 5), (2, 6)]], [], [[(3, 7)]], [[(4, 8)]]⟩, .ok) := rfl

example : setAll (V := ℚ) ⟨[[(0, 0), (0, 0)]], [], [[(0, 0)]], [[(0, 0)]]⟩ [1, 2, 3] [5, 6, 7] =
    (⟨[[(1, 5), (2, 6)]], [], [[(3, 7)]], [[(0, 0)]]⟩, .notEnough) := rfl

theorem readTriples_some {X : Type} (n : ℕ) (U : List X) (h : 3 * n ≤ U.length) :
    ∃ u, readTriples n U = some u ∧ u.length = n ∧ ∀ (i : ℕ) (hi : i < n),
      u[i]? = some ![U[3 * i]'(by omega), U[3 * i + 1]'(by omega), U[3 * i + 2]'(by omega)] := by
  unfold readTriples
  induction n with
  | zero => exact ⟨[], rfl, rfl, fun i hi => absurd hi (by omega)⟩
  | succ n ih =>
    obtain ⟨u, h1, h2, h3⟩ := ih (by omega)
    refine ⟨u ++ [![U[3 * n]'(by omega), U[3 * n + 1]'(by omega), U[3 * n + 2]'(by omega)]], ?_, by simp [h2], ?_⟩
    · rw [List.range_succ, List.mapM_append, h1]
      simp [List.getElem?_eq_getElem (show 3 * n < U.length by omega), List.getElem?_eq_getElem (show 3 * n + 1 < U.length by omega),
        List.getElem?_eq_getElem (show 3 * n + 2 < U.length by omega)]
    · intro i hi
      by_cases hn : i < n
      · rw [List.getElem?_append_left (by omega)]
        exact h3 i hn
      · obtain rfl : i = n := by omega
        rw [List.getElem?_append_right (by omega), h2]
        simp

theorem readTriples_none {X : Type} (n : ℕ) (U : List X) (h : U.length < 3 * n) : readTriples n U = none := by
  unfold readTriples
  cases hm : (List.range n).mapM (fun i => (do
    let a ← U[3 * i]?
    let b ← U[3 * i + 1]?
    let c ← U[3 * i + 2]?
    pure ![a, b, c] : Option (Fin 3 → X))) with
  | none => rfl
  | some u =>
    exfalso
    have hn : n - 1 < n := by omega
    have key : ∀ (l : List ℕ) (u : List (Fin 3 → X)), l.mapM (fun i => (do
        let a ← U[3 * i]?
        let b ← U[3 * i + 1]?
        let c ← U[3 * i + 2]?
        pure ![a, b, c] : Option (Fin 3 → X))) = some u → ∀ i ∈ l, 3 * i + 2 < U.length := by
      intro l
      induction l with
      | nil => intro u _ i hi; simp at hi
      | cons j l ih =>
        intro u hu i hi
        rw [List.mapM_cons] at hu
        simp only [Option.bind_eq_bind, Option.bind_eq_some_iff] at hu
        obtain ⟨v, ⟨a, ha, b, hb, c, hc, hv⟩, w, hw, -⟩ := hu
        rcases List.mem_cons.1 hi with rfl | hi
        · exact (List.getElem?_eq_some_iff.1 hc).1
        · exact ih w hw i hi
    have := key _ u hm (n - 1) (List.mem_range.2 hn)
    omega

theorem flat_get {X : Type} (l : List (Fin 3 → X)) (i : ℕ) (v : Fin 3 → X) (h : l[i]? = some v) (j : Fin 3) :
    (l.flatMap fun v => [v 0, v 1, v 2])[3 * i + j.1]? = some (v j) := by
  induction l generalizing i with
  | nil => simp at h
  | cons x l ih =>
    cases i with
    | zero =>
      simp at h
      subst h
      fin_cases j <;> simp
    | succ i =>
      simp only [List.getElem?_cons_succ] at h
      have := ih i h
      rw [List.flatMap_cons, List.getElem?_append_right (by simp; omega)]
      simp only [List.length_cons, List.length_nil]
      rw [show 3 * (i + 1) + j.1 - (0 + 1 + 1 + 1) = 3 * i + j.1 by omega]
      exact this

/-- **C24 (C functions).** After `MoorDyn_ExternalWaveKinInit`, of a system with some node: the i-th three numbers written by
`MoorDyn_ExternalWaveKinGetCoordinates` are the coordinates of the node for which the i-th three numbers of the arrays given to
`MoorDyn_ExternalWaveKinSet` are stored, for each of the nodes there are, if the arrays have three numbers for each node; and the call succeeds. -/
theorem C24_c_functions {X : Type} [AddCommGroup X] (pos : All (Fin 3 → X)) (k : All ((Fin 3 → X) × (Fin 3 → X))) (hshape : pos.SameShape k)
    (h0 : 0 < pos.visit.length) (U Ud : List X) (hU : 3 * pos.visit.length ≤ U.length) (hUd : 3 * pos.visit.length ≤ Ud.length) :
    ∃ e : List (Kind × ℕ × ℕ), e.Nodup ∧ (∀ kind id n, (kind, id, n) ∈ e ↔ (pos.at kind id n).isSome) ∧
      (writeCoordinates pos).length = 3 * e.length ∧ (externalSet pos.visit.length k U Ud).2 = .code 0 ∧
      ∀ (i : ℕ) (q : Kind × ℕ × ℕ), e[i]? = some q → ∃ r u ud : Fin 3 → X, pos.at q.1 q.2.1 q.2.2 = some r ∧
        (externalSet pos.visit.length k U Ud).1.at q.1 q.2.1 q.2.2 = some (u, ud) ∧
        ∀ j : Fin 3, (writeCoordinates pos)[3 * i + j.1]? = some (r j) ∧ U[3 * i + j.1]? = some (u j) ∧ Ud[3 * i + j.1]? = some (ud j) := by
  have hn := (nodes_spec pos)
  have hv := at_values pos
  have hlen : pos.nodes.length = pos.visit.length := by
    have := congrArg List.length hv
    simpa using this
  have hlk : pos.nodes.length = k.visit.length := by
    have := congrArg List.length (at_values k)
    rw [List.length_map, List.length_map, ← nodes_shape _ _ hshape] at this
    exact this
  obtain ⟨u, hu, hul, hug⟩ := readTriples_some _ U hU
  obtain ⟨ud, hud, hudl, hudg⟩ := readTriples_some _ Ud hUd
  obtain ⟨h1, h2, h3, -⟩ := setAll_visit k u ud (by rw [hul, hudl])
  have hok : (setAll k u ud).2 = .ok := h3.mpr (by rw [hul, ← hlen, hlk])
  have hset : externalSet pos.visit.length k U Ud = ((setAll k u ud).1, .code 0) := by
    unfold externalSet
    rw [if_neg (by omega), hu, hud]
    dsimp only
    generalize hs : setAll k u ud = s at hok
    obtain ⟨s1, s2⟩ := s
    subst hok
    rfl
  refine ⟨pos.nodes, hn.1, hn.2, ?_, by rw [hset], ?_⟩
  · unfold writeCoordinates
    rw [List.length_flatMap, hlen]
    simp [Nat.mul_comm]
  · intro i q hq
    have hi : i < pos.visit.length := by
      rw [← hlen]
      exact (List.getElem?_eq_some_iff.mp hq).1
    have hr := congrArg (fun l => l[i]?) hv
    simp only [List.getElem?_map, hq, Option.map_some, List.getElem?_eq_getElem hi] at hr
    have hs := congrArg (fun l => l[i]?) (at_values (setAll k u ud).1)
    rw [nodes_shape _ _ h2, ← nodes_shape _ _ hshape] at hs
    simp only [List.getElem?_map, hq, Option.map_some, h1] at hs
    have hz : (u.zip ud)[i]? = some (_, _) := List.getElem?_zip_eq_some.2 ⟨hug i hi, hudg i hi⟩
    rw [List.getElem?_append_left (by simp only [List.length_take, List.length_zip]; omega),
      List.getElem?_take_of_lt (by omega), hz] at hs
    refine ⟨_, _, _, by simpa using hr, by rw [hset]; simpa using hs, ?_⟩
    intro j
    refine ⟨flat_get _ i _ (List.getElem?_eq_getElem hi) j, ?_, ?_⟩ <;> fin_cases j
    · exact List.getElem?_eq_getElem (i := 3 * i) (by omega)
    · exact List.getElem?_eq_getElem (i := 3 * i + 1) (by omega)
    · exact List.getElem?_eq_getElem (i := 3 * i + 2) (by omega)
    · exact List.getElem?_eq_getElem (i := 3 * i) (by omega)
    · exact List.getElem?_eq_getElem (i := 3 * i + 1) (by omega)
    · exact List.getElem?_eq_getElem (i := 3 * i + 2) (by omega)

/-- **C24 (C functions, errors).** Before `MoorDyn_ExternalWaveKinInit` the call is refused and nothing changes; with an array that is too
short, which the function cannot know, it reads beyond it. -/
theorem C24_c_errors {X : Type} (k : All ((Fin 3 → X) × (Fin 3 → X))) (U Ud : List X) :
    externalSet 0 k U Ud = (k, .code (-6)) ∧
    ∀ n, 0 < n → U.length < 3 * n ∨ Ud.length < 3 * n → externalSet n k U Ud = (k, .undefined) := by
  refine ⟨rfl, fun n hn h => ?_⟩
  unfold externalSet
  rw [if_neg (by omega)]
  rcases h with h | h
  · rw [readTriples_none _ _ h]
  · rw [readTriples_none _ Ud h]
    cases readTriples n U <;> rfl

/-- A line of one segment and a point: nine numbers in each array. -/
example : externalSet (X := ℚ) 3 ⟨[[(0, 0), (0, 0)]], [], [[(0, 0)]], []⟩ [1, 2, 3, 4, 5, 6, 7, 8, 9] [0, 0, 1, 0, 0, 2, 0, 0, 3] =
    (⟨[[(![1, 2, 3], ![0, 0, 1]), (![4, 5, 6], ![0, 0, 2])]], [], [[(![7, 8, 9], ![0, 0, 3])]], []⟩, .code 0) := by
  rfl

/-! ## C25: waves and current add up -/

/-- contribution of a provider that may be absent -/
def velOf (w : Option (Pos K → Kin K V)) (p : Pos K) : V := (w.map fun f => (f p).vel).getD 0

/-- contribution of a provider that may be absent -/
def accOf (w : Option (Pos K → Kin K V)) (p : Pos K) : V := (w.map fun f => (f p).acc).getD 0

/-- contribution of a provider that may be absent -/
def curVel (c : Option (Pos K → V × V)) (p : Pos K) : V := (c.map fun f => (f p).1).getD 0

/-- contribution of a provider that may be absent -/
def curAcc (c : Option (Pos K → V × V)) (p : Pos K) : V := (c.map fun f => (f p).2).getD 0

/-- **C25 (query at a point).** Velocity and acceleration are the sums of those of waves
and current, whichever of them exist; so they vanish without waves and current. Elevation and
pressure are those of the waves, zero without them. -/
theorem C25_point (w : Option (Pos K → Kin K V)) (c : Option (Pos K → V × V)) (p : Pos K) :
    (pointKin w c p).vel = velOf w p + curVel c p ∧ (pointKin w c p).acc = accOf w p + curAcc c p ∧
    (pointKin w c p).zeta = ((w.map fun f => (f p).zeta).getD 0) ∧
    (pointKin w c p).pdyn = ((w.map fun f => (f p).pdyn).getD 0) := by
  cases w <;> cases c <;> simp [pointKin, velOf, accOf, curVel, curAcc]

/-- **C25 (nodes).** After the update before each evaluation, each node holds the sum; elevation and
pressure are those of the waves, or those it had. -/
theorem C25_node (w : Option (Pos K → Kin K V)) (c : Option (Pos K → V × V)) (p : Pos K)
    (h : w.isSome ∨ c.isSome) (n : Node K V) :
    (n.update false w c p).kin.vel = velOf w p + curVel c p ∧
    (n.update false w c p).kin.acc = accOf w p + curAcc c p ∧
    (n.update false w c p).kin.zeta = ((w.map fun f => (f p).zeta).getD n.kin.zeta) ∧
    (n.update false w c p).kin.pdyn = ((w.map fun f => (f p).pdyn).getD n.kin.pdyn) := by
  cases w <;> cases c <;> simp [Node.update, velOf, accOf, curVel, curAcc] at h ⊢

/-- **C25 (no water motion).** Without waves, current and external kinematics the nodes
hold zero after any number of updates, wherever the nodes move. -/
theorem C25_still (ps : List (Pos K)) :
    (ps.foldl (fun n p => Node.update false none none p n) (Node.fresh : Node K V)).kin.vel = 0 ∧
    (ps.foldl (fun n p => Node.update false none none p n) (Node.fresh : Node K V)).kin.acc = 0 ∧
    (ps.foldl (fun n p => Node.update false none none p n) (Node.fresh : Node K V)).kin.zeta = 0 ∧
    (ps.foldl (fun n p => Node.update false none none p n) (Node.fresh : Node K V)).kin.pdyn = 0 := by
  have : ps.foldl (fun n p => Node.update false none none p n) (Node.fresh : Node K V) = Node.fresh := by
    induction ps with
    | nil => rfl
    | cons p ps ih => simp [Node.update]
  rw [this]; exact ⟨rfl, rfl, rfl, rfl⟩

/-- **C25 (external waves).** After the external kinematics are passed, any number of
updates at any positions leaves in the node the external value plus the current (if any)
at the last position. -/
theorem C25_external (c : Option (Pos K → V × V)) (u ud : V) (n : Node K V) (ps : List (Pos K))
    (p : Pos K) :
    let m := (ps ++ [p]).foldl (fun n p => Node.update true none c p n) (n.setExternal c.isSome u ud)
    m.kin.vel = u + curVel c p ∧ m.kin.acc = ud + curAcc c p := by
  intro m
  cases c with
  | none =>
    have : ∀ (l : List (Pos K)) (n : Node K V), l.foldl (fun n p => Node.update true none none p n) n = n := by
      intro l
      induction l with
      | nil => intro n; rfl
      | cons q l ih => intro n; simp [Node.update]
    have hm : m = n.setExternal false u ud := this _ _
    rw [hm]; simp [Node.setExternal, curVel, curAcc]
  | some c =>
    have : ∀ (l : List (Pos K)) (n : Node K V),
        (l.foldl (fun n p => Node.update true none (some c) p n) n).wave = n.wave := by
      intro l
      induction l with
      | nil => intro n; rfl
      | cons q l ih => intro n; rw [List.foldl_cons, ih]; rfl
    simp only [m, List.foldl_append, List.foldl_cons, List.foldl_nil]
    have hw := this ps (n.setExternal true u ud)
    simp only [Option.isSome_some]
    generalize ps.foldl (fun n p => Node.update true none (some c) p n) (n.setExternal true u ud) = q at hw
    simp only [Node.update, hw]
    simp [Node.setExternal, curVel, curAcc]

/-- **C25, the point query ignores external waves.** With external kinematics the query of
the kinematics at a point answers the current alone, whatever was passed. -/
theorem C25_external_query_false : ∃ (u : ℚ) (p : Pos ℚ) (n : Node ℚ ℚ),
    ((n.setExternal false u 0).update true none none p).kin.vel = u ∧
    (pointKin (V := ℚ) none none p).vel ≠ u :=
  ⟨1, ⟨0, 0, 0⟩, Node.fresh, rfl, by simp [pointKin]⟩

/-- value of the current `c` sampled at the ticks of a grid, at sample `w` -/
def sampled (c : K → K → K → K → V) (g : WaveGrid K V) (w : ℕ) : ℕ → ℕ → ℕ → V :=
  fun i j k => c (g.px.getD i 0) (g.py.getD j 0) (g.pz.getD k 0) (w * g.dt)

theorem at4_map4 {nx ny nz nt : ℕ} {v : List (List (List (List V)))} (h : Shape4 nx ny nz nt v)
    (f : ℕ → ℕ → ℕ → ℕ → V → V) {i j k w : ℕ} (hi : i < nx) (hj : j < ny) (hk : k < nz) (hw : w < nt) :
    at4 (map4 f v) i j k w = f i j k w (at4 v i j k w) := by
  obtain ⟨e, he⟩ := h i j k w hi hj hk hw
  simp [at4, get4_map4, he]

theorem Shape4.map4 {nx ny nz nt : ℕ} {v : List (List (List (List V)))} (h : Shape4 nx ny nz nt v)
    (f : ℕ → ℕ → ℕ → ℕ → V → V) : Shape4 nx ny nz nt (map4 f v) := by
  intro i j k w hi hj hk hw
  obtain ⟨e, he⟩ := h i j k w hi hj hk hw
  exact ⟨f i j k w e, by rw [get4_map4, he]; rfl⟩

theorem tri_congr {F G : ℕ → ℕ → ℕ → V} {nx ny nz i j k : ℕ} (hi : i < nx) (hj : j < ny) (hk : k < nz)
    (h : ∀ a b c, a < nx → b < ny → c < nz → F a b c = G a b c) (fx fy fz : K) :
    tri F i j k fx fy fz = tri G i j k fx fy fz := by
  have hi' := low_lt hi
  have hj' := low_lt hj
  have hk' := low_lt hk
  simp only [tri, bi]
  rw [h _ _ _ hi hj hk, h _ _ _ hi hj hk', h _ _ _ hi hj' hk, h _ _ _ hi hj' hk', h _ _ _ hi' hj hk,
    h _ _ _ hi' hj hk', h _ _ _ hi' hj' hk, h _ _ _ hi' hj' hk']

/-- the interpolation of an array to which a field was added -/
theorem interp4_add {nx ny nz nt : ℕ} {v : List (List (List (List V)))} (h : Shape4 nx ny nz nt v)
    (f : ℕ → ℕ → ℕ → ℕ → V) {i j k w : ℕ} (hi : i < nx) (hj : j < ny) (hk : k < nz) (hw : w < nt)
    (fx fy fz fw : K) :
    interp4 (map4 (fun a b c d e => e + f a b c d) v) i j k w fx fy fz fw =
      (interp4 v i j k w fx fy fz fw).map (· +
        lerp (tri (fun a b c => f a b c (low w)) i j k fx fy fz) (tri (fun a b c => f a b c w) i j k fx fy fz) fw) := by
  rw [interp4_eq h hi hj hk hw, interp4_eq (h.map4 _) hi hj hk hw, Option.map_some, Option.some.injEq,
    ← lerp_add, ← tri_add, ← tri_add]
  congr 1
  · exact tri_congr hi hj hk (fun a b c ha hb hc => at4_map4 h _ ha hb hc (low_lt hw)) fx fy fz
  · exact tri_congr hi hj hk (fun a b c ha hb hc => at4_map4 h _ ha hb hc hw) fx fy fz

/-- the look-up in a grid to whose arrays fields were added -/
theorem kin_add [FloorSemiring K] (g : WaveGrid K V) (hg : g.WF) (fv fa : ℕ → ℕ → ℕ → ℕ → V)
    (x y z t bottom avg : K) (ht : 0 ≤ t) (hb : ⌊t / g.dt⌋₊ < 2 ^ 32 - 1)
    (k : Kin K V) (hk : g.kin x y z t bottom avg = some k) :
    ∃ s it ft dv dv' da da',
      stretch avg bottom k.zeta z = some s ∧ timeFactor g.nt g.dt t = some (it, ft) ∧
      IsTrilinear g.px g.py g.pz (fun a b c => fv a b c (low it)) x y s dv ∧
      IsTrilinear g.px g.py g.pz (fun a b c => fv a b c it) x y s dv' ∧
      IsTrilinear g.px g.py g.pz (fun a b c => fa a b c (low it)) x y s da ∧
      IsTrilinear g.px g.py g.pz (fun a b c => fa a b c it) x y s da' ∧
      ({ g with
          vel := map4 (fun i j k w v => v + fv i j k w) g.vel
          acc := map4 (fun i j k w v => v + fa i j k w) g.acc } : WaveGrid K V).kin x y z t bottom avg =
        some ⟨k.zeta, k.vel + ((1 - ft) • dv + ft • dv'), k.acc + ((1 - ft) • da + ft • da'), k.pdyn⟩ := by
  obtain ⟨ix, fx, e1, lx, -, fx0, fx1, -, -⟩ := interpFactor_any (V := K) g.px hg.ix hg.nx x
  obtain ⟨iy, fy, e2, ly, -, fy0, fy1, -, -⟩ := interpFactor_any (V := K) g.py hg.iy hg.ny y
  obtain ⟨it, ft, e3, lt, ft0, ft1⟩ := timeFactor_range g.nt g.dt t hg.nt (div_nonneg ht hg.dt.le) hb
  unfold WaveGrid.kin at hk ⊢
  simp only [e1, e2, e3, Option.bind_eq_bind, Option.bind_some] at hk ⊢
  have e4 := interp3_eq hg.zetas lx ly lt fx fy ft
  simp only [e4, Option.bind_some] at hk ⊢
  cases e5 : stretch avg bottom (lerp (bi (fun a b => at3 g.zetas a b (low it)) ix iy fx fy)
      (bi (fun a b => at3 g.zetas a b it) ix iy fx fy) ft) z with
  | none => rw [e5] at hk; simp at hk
  | some s =>
    rw [e5] at hk
    obtain ⟨iz, fz, e6, lz, -, -, -, -, -⟩ := interpFactor_any (V := K) g.pz hg.iz hg.nz s
    have hT := fun (u : ℕ → ℕ → ℕ → V) d =>
      trilinear_iff g.px g.py g.pz hg.ix hg.iy hg.iz hg.nx hg.ny hg.nz u x y s ix iy iz fx fy fz e1 e2 e6 d
    simp only [e6, Option.bind_some, interp4_eq hg.vel lx ly lz lt, interp4_eq hg.acc lx ly lz lt,
      interp4_eq hg.pdyn lx ly lz lt, Option.pure_def, Option.some.injEq] at hk
    subst hk
    refine ⟨s, it, ft, _, _, _, _, e5, rfl, (hT _ _).mpr rfl, (hT _ _).mpr rfl, (hT _ _).mpr rfl,
      (hT _ _).mpr rfl, ?_⟩
    simp only [e6, Option.bind_some, interp4_add hg.vel _ lx ly lz lt, interp4_add hg.acc _ lx ly lz lt,
      interp4_eq hg.vel lx ly lz lt, interp4_eq hg.acc lx ly lz lt,
      interp4_eq hg.pdyn lx ly lz lt, Option.bind_some, Option.pure_def, Option.some.injEq, Option.map_some]
    rfl

theorem map4_id {A : Type} (f : ℕ → ℕ → ℕ → ℕ → A → A) (h : ∀ i j k w a, f i j k w a = a)
    (v : List (List (List (List A)))) : map4 f v = v := by
  have m : ∀ {B : Type} (l : List B) (f : ℕ → B → B), (∀ i b, f i b = b) → l.mapIdx f = l := by
    intro B l f hf
    apply List.ext_getElem (by simp)
    intro i _ _
    simp [hf]
  unfold map4
  exact m _ _ fun i a => m _ _ fun j b => m _ _ fun k c => m _ _ fun w d => h i j k w d

/-- **C25 (unified grids, partial).** When a gridded current is merged in the wave grid,
elevation and pressure stay and velocity and acceleration gain the current sampled at the
ticks of the wave grid, interpolated in space and time with the factors of the waves — at
the *stretched* depth `s` instead of the depth of the point, see
`C25_unified_stretched_false`. -/
theorem C25_unified_4d_partial [FloorSemiring K] (g : WaveGrid K V) (hg : g.WF)
    (c : K → K → K → K → V × V) (x y z t bottom avg : K) (ht : 0 ≤ t) (hb : ⌊t / g.dt⌋₊ < 2 ^ 32 - 1)
    (k : Kin K V) (hk : g.kin x y z t bottom avg = some k) :
    ∃ s it ft dv dv' da da',
      stretch avg bottom k.zeta z = some s ∧ timeFactor g.nt g.dt t = some (it, ft) ∧
      IsTrilinear g.px g.py g.pz (sampled (fun x y z t => (c x y z t).1) g (low it)) x y s dv ∧
      IsTrilinear g.px g.py g.pz (sampled (fun x y z t => (c x y z t).1) g it) x y s dv' ∧
      IsTrilinear g.px g.py g.pz (sampled (fun x y z t => (c x y z t).2) g (low it)) x y s da ∧
      IsTrilinear g.px g.py g.pz (sampled (fun x y z t => (c x y z t).2) g it) x y s da' ∧
      (unify4D c g).kin x y z t bottom avg =
        some ⟨k.zeta, k.vel + ((1 - ft) • dv + ft • dv'), k.acc + ((1 - ft) • da + ft • da'), k.pdyn⟩ :=
  kin_add g hg
    (fun i j k w => (c (g.px.getD i 0) (g.py.getD j 0) (g.pz.getD k 0) (w * g.dt)).1)
    (fun i j k w => (c (g.px.getD i 0) (g.py.getD j 0) (g.pz.getD k 0) (w * g.dt)).2)
    x y z t bottom avg ht hb k hk

/-- The same for steady profiles: the profile at `(0, 0)` and time zero. -/
theorem C25_unified_steady_partial [FloorSemiring K] (g : WaveGrid K V) (hg : g.WF)
    (c : K → K → K → K → V × V) (x y z t bottom avg : K) (ht : 0 ≤ t) (hb : ⌊t / g.dt⌋₊ < 2 ^ 32 - 1)
    (k : Kin K V) (hk : g.kin x y z t bottom avg = some k) :
    ∃ s dv da, stretch avg bottom k.zeta z = some s ∧
      IsTrilinear g.px g.py g.pz (fun _ _ i => (c 0 0 (g.pz.getD i 0) 0).1) x y s dv ∧
      IsTrilinear g.px g.py g.pz (fun _ _ i => (c 0 0 (g.pz.getD i 0) 0).2) x y s da ∧
      (unifySteady c g).kin x y z t bottom avg = some ⟨k.zeta, k.vel + dv, k.acc + da, k.pdyn⟩ := by
  obtain ⟨s, it, ft, dv, dv', da, da', h1, h2, h3, h4, h5, h6, h7⟩ := kin_add g hg
    (fun _ _ k _ => (c 0 0 (g.pz.getD k 0) 0).1) (fun _ _ k _ => (c 0 0 (g.pz.getD k 0) 0).2)
    x y z t bottom avg ht hb k hk
  obtain ⟨ix, fx, e1, -⟩ := interpFactor_any (V := K) g.px hg.ix hg.nx x
  obtain ⟨iy, fy, e2, -⟩ := interpFactor_any (V := K) g.py hg.iy hg.ny y
  obtain ⟨iz, fz, e3, -⟩ := interpFactor_any (V := K) g.pz hg.iz hg.nz s
  have hT := fun (u : ℕ → ℕ → ℕ → V) d =>
    trilinear_iff g.px g.py g.pz hg.ix hg.iy hg.iz hg.nx hg.ny hg.nz u x y s ix iy iz fx fy fz e1 e2 e3 d
  have q1 : dv' = dv := ((hT _ _).mp h4).trans ((hT _ _).mp h3).symm
  have q2 : da' = da := ((hT _ _).mp h6).trans ((hT _ _).mp h5).symm
  refine ⟨s, dv, da, h1, h3, h5, ?_⟩
  rw [unifySteady, h7, q1, q2]
  have : ∀ a : V, (1 - ft) • a + ft • a = a := fun a => lerp_self a ft
  rw [this, this]

/-- The same for time dependent profiles, as long as the profile has no acceleration
(`constructDynamicCurrentGrid`, source/Waves/WaveGrid.cpp:725, leaves it at zero). -/
theorem C25_unified_dynamic_partial [FloorSemiring K] (g : WaveGrid K V) (hg : g.WF)
    (c : K → K → K → K → V × V) (hc : ∀ x y z t, (c x y z t).2 = 0) (x y z t bottom avg : K)
    (ht : 0 ≤ t) (hb : ⌊t / g.dt⌋₊ < 2 ^ 32 - 1)
    (k : Kin K V) (hk : g.kin x y z t bottom avg = some k) :
    ∃ s it ft dv dv', stretch avg bottom k.zeta z = some s ∧ timeFactor g.nt g.dt t = some (it, ft) ∧
      IsTrilinear g.px g.py g.pz
        (fun _ _ i => (c 0 0 (g.pz.getD i 0) ((low it : ℕ) * g.dt)).1) x y s dv ∧
      IsTrilinear g.px g.py g.pz (fun _ _ i => (c 0 0 (g.pz.getD i 0) (it * g.dt)).1) x y s dv' ∧
      (unifyDynamic c g).kin x y z t bottom avg =
        some ⟨k.zeta, k.vel + ((1 - ft) • dv + ft • dv'), k.acc, k.pdyn⟩ := by
  obtain ⟨s, it, ft, dv, dv', da, da', h1, h2, h3, h4, h5, h6, h7⟩ := kin_add g hg
    (fun _ _ k w => (c 0 0 (g.pz.getD k 0) (w * g.dt)).1) (fun _ _ _ _ => 0)
    x y z t bottom avg ht hb k hk
  obtain ⟨ix, fx, e1, -⟩ := interpFactor_any (V := K) g.px hg.ix hg.nx x
  obtain ⟨iy, fy, e2, -⟩ := interpFactor_any (V := K) g.py hg.iy hg.ny y
  obtain ⟨iz, fz, e3, -⟩ := interpFactor_any (V := K) g.pz hg.iz hg.nz s
  have hT := fun (u : ℕ → ℕ → ℕ → V) d =>
    trilinear_iff g.px g.py g.pz hg.ix hg.iy hg.iz hg.nx hg.ny hg.nz u x y s ix iy iz fx fy fz e1 e2 e3 d
  have q1 : da = 0 := by rw [(hT _ _).mp h5]; simp [tri, bi, lerp]
  have q2 : da' = 0 := by rw [(hT _ _).mp h6]; simp [tri, bi, lerp]
  refine ⟨s, it, ft, dv, dv', h1, h2, h3, h4, ?_⟩
  rw [q1, q2, smul_zero, smul_zero, add_zero, add_zero,
    map4_id (fun i j k w v => v + 0) (fun _ _ _ _ a => add_zero a)] at h7
  rw [← h7]
  simp only [unifyDynamic, hc, add_zero]

/-- a grid without time dependence and still water surface 10 m above the mean level -/
def demo2 : WaveGrid ℚ ℚ :=
  { px := [0], py := [0], pz := [-100, 0], nt := 1, dt := 1, zetas := [[[100]]],
    vel := [[[[0], [0]]]], acc := [[[[0], [0]]]], pdyn := [[[[0], [0]]]] }

/-- **C25, merged currents are stretched: false as stated.** A steady current that grows
linearly from the bed (`z + 100`), waves of velocity zero and the surface raised by 100 m:
at mid depth the merged grid gives 50 instead of the sum 0 + 100. -/
theorem C25_unified_stretched_false :
    (unifySteady (fun _ _ z _ => (z + 100, 0)) demo2).kin 0 0 0 0 (-100) (-100) = some ⟨100, 50, 0, 0⟩ ∧
    demo2.kin 0 0 0 0 (-100) (-100) = some ⟨100, 0, 0, 0⟩ ∧ ((0 : ℚ) + 100 ≠ 50 - 0) := by
  refine ⟨by decide +kernel, by decide +kernel, by norm_num⟩

/-- Both the merged grid and the separate grids are exercised on concrete data. -/
example : (unify4D (fun _ _ _ t => (t, 1)) demo).kin 0 0 (-100) (1/2) (-100) (-100) =
    some ⟨5, 1/2 + 1/2, 1/2 + 1, 1/2⟩ := by
  have h1 : timeFactor demo.nt demo.dt (1/2) = some (1, 1/2) := by
    have hf : ⌊(1/2 : ℚ) / demo.dt⌋₊ = 0 := by decide +kernel
    rw [timeFactor_some _ _ _ (by decide) (by decide +kernel) (by rw [hf]; norm_num), hf]
    norm_num [demo]
  unfold WaveGrid.kin
  rw [show (unify4D (fun _ _ _ t => (t, 1)) demo).nt = demo.nt from rfl,
    show (unify4D (fun _ _ _ t => ((t : ℚ), (1 : ℚ))) demo).dt = demo.dt from rfl, h1]
  decide +kernel

end MD.Waves
