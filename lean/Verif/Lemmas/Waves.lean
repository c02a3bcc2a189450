import Verif.Model.Waves
import Verif.Spec.Waves
import Verif.Lemmas.Interp
import Mathlib.Algebra.Order.Floor.Ring

/-! Helper lemmas on wave grids. -/

set_option linter.unusedSimpArgs false
set_option linter.unusedSectionVars false

namespace MD.Waves

open MD.Interp

variable {K V : Type} [Field K] [LinearOrder K] [IsStrictOrderedRing K] [AddCommGroup V] [Module K V]

theorem wrap_eq_mod (nt it : ℕ) (h : 0 < nt) : wrap nt it = it % nt := by
  induction it using Nat.strong_induction_on with
  | _ it ih =>
    unfold wrap
    by_cases c : nt - 1 < it
    · rw [dif_pos ⟨c, h⟩, ih (it - nt) (by omega)]
      exact (Nat.mod_eq_sub_mod (by omega)).symm
    · rw [dif_neg (by tauto)]
      exact (Nat.mod_eq_of_lt (by omega)).symm

theorem timeFactor_some [FloorSemiring K] (nt : ℕ) (dt t : K) (hn : 1 < nt) (h0 : 0 ≤ t / dt)
    (hb : ⌊t / dt⌋₊ < 2 ^ 32 - 1) :
    timeFactor nt dt t = some ((⌊t / dt⌋₊ + 1) % nt, t / dt - (⌊t / dt⌋₊ : K)) := by
  unfold timeFactor
  rw [if_pos hn]
  simp only
  rw [if_neg (not_lt.mpr h0), if_neg (not_le.mpr hb), wrap_eq_mod _ _ (by omega)]

/-- closed form of the interpolation in two directions -/
def bi (F : ℕ → ℕ → V) (i j : ℕ) (fx fy : K) : V :=
  lerp (lerp (F (low i) (low j)) (F i (low j)) fx) (lerp (F (low i) j) (F i j) fx) fy

/-- closed form of the interpolation in three directions -/
def tri (F : ℕ → ℕ → ℕ → V) (i j k : ℕ) (fx fy fz : K) : V :=
  lerp (bi (fun a b => F a b (low k)) i j fx fy) (bi (fun a b => F a b k) i j fx fy) fz

theorem bilinear_iff (px py : List K) (hx : Inc px) (hy : Inc py) (nx : 0 < px.length)
    (ny : 0 < py.length) (z : ℕ → ℕ → V) (x y : K) (ix iy : ℕ) (fx fy : K)
    (h1 : interpFactor px 1 x = some (ix, fx)) (h2 : interpFactor py 1 y = some (iy, fy)) (d : V) :
    IsBilinear px py z x y d ↔ d = bi z ix iy fx fy := by
  obtain ⟨ix', fx', e1, lx, lx', -, -, -, gx⟩ := interpFactor_any (V := V) px hx nx x
  obtain ⟨iy', fy', e2, ly, ly', -, -, -, gy⟩ := interpFactor_any (V := V) py hy ny y
  rw [h1] at e1; rw [h2] at e2
  simp only [Option.some.injEq, Prod.mk.injEq] at e1 e2
  obtain ⟨rfl, rfl⟩ := e1
  obtain ⟨rfl, rfl⟩ := e2
  have hrow : ∀ j, IsInterp px ((List.range px.length).map fun i => z i j) x
      (lerp (z (low ix) j) (z ix j) fx) := by
    intro j
    apply gx _ _ _ (by simp)
    · simp [lx']
    · simp [lx]
  have hcol : IsInterp py ((List.range py.length).map fun j => lerp (z (low ix) j) (z ix j) fx) y
      (bi z ix iy fx fy) := by
    apply gy _ _ _ (by simp)
    · simp [ly']
    · simp [ly]
  constructor
  · rintro ⟨col, hl, hc, hd⟩
    have : col = (List.range py.length).map fun j => lerp (z (low ix) j) (z ix j) fx := by
      apply List.ext_getElem (by simp [hl])
      intro j hj _
      have := hc j col[j] (List.getElem?_eq_getElem hj)
      rw [List.getElem_map, List.getElem_range]
      exact IsInterp.unique px _ hx nx (by simp) x _ _ this (hrow j)
    subst this
    exact IsInterp.unique py _ hy ny (by simp) y _ _ hd hcol
  · rintro rfl
    refine ⟨_, by simp, ?_, hcol⟩
    intro j c hc
    rw [List.getElem?_map] at hc
    by_cases hj : j < py.length
    · simp [hj] at hc; subst hc; exact hrow j
    · simp [hj] at hc

theorem trilinear_iff (px py pz : List K) (hx : Inc px) (hy : Inc py) (hz : Inc pz)
    (nx : 0 < px.length) (ny : 0 < py.length) (nz : 0 < pz.length) (u : ℕ → ℕ → ℕ → V) (x y z : K)
    (ix iy iz : ℕ) (fx fy fz : K)
    (h1 : interpFactor px 1 x = some (ix, fx)) (h2 : interpFactor py 1 y = some (iy, fy))
    (h3 : interpFactor pz 1 z = some (iz, fz)) (d : V) :
    IsTrilinear px py pz u x y z d ↔ d = tri u ix iy iz fx fy fz := by
  obtain ⟨iz', fz', e3, lz, lz', -, -, -, gz⟩ := interpFactor_any (V := V) pz hz nz z
  rw [h3] at e3
  simp only [Option.some.injEq, Prod.mk.injEq] at e3
  obtain ⟨rfl, rfl⟩ := e3
  have hb : ∀ k c, IsBilinear px py (fun i j => u i j k) x y c ↔ c = _ := fun k c =>
    bilinear_iff px py hx hy nx ny (fun i j => u i j k) x y ix iy fx fy h1 h2 c
  have hcol : IsInterp pz ((List.range pz.length).map fun k => bi (fun i j => u i j k) ix iy fx fy) z
      (tri u ix iy iz fx fy fz) := by
    apply gz _ _ _ (by simp)
    · simp [lz']
    · simp [lz]
  constructor
  · rintro ⟨col, hl, hc, hd⟩
    have : col = (List.range pz.length).map fun k => bi (fun i j => u i j k) ix iy fx fy := by
      apply List.ext_getElem (by simp [hl])
      intro k hk _
      rw [List.getElem_map, List.getElem_range]
      exact (hb k _).mp (hc k col[k] (List.getElem?_eq_getElem hk))
    subst this
    exact IsInterp.unique pz _ hz nz (by simp) z _ _ hd hcol
  · rintro rfl
    refine ⟨_, by simp, ?_, hcol⟩
    intro k c hc
    rw [List.getElem?_map] at hc
    by_cases hk : k < pz.length
    · simp [hk] at hc; subst hc; exact (hb k _).mpr rfl
    · simp [hk] at hc

/-- the array has at least the given numbers of entries -/
def Shape3 {X : Type} (nx ny nz : ℕ) (v : List (List (List X))) : Prop :=
  ∀ i j k, i < nx → j < ny → k < nz → ∃ e, get3 v i j k = some e

/-- the array has at least the given numbers of entries -/
def Shape4 {X : Type} (nx ny nz nt : ℕ) (v : List (List (List (List X)))) : Prop :=
  ∀ i j k w, i < nx → j < ny → k < nz → w < nt → ∃ e, get4 v i j k w = some e

/-- entries of a three-dimensional array -/
def at3 {X : Type} [Zero X] (v : List (List (List X))) (i j k : ℕ) : X := (get3 v i j k).getD 0

/-- entries of a four-dimensional array -/
def at4 {X : Type} [Zero X] (v : List (List (List (List X)))) (i j k w : ℕ) : X :=
  (get4 v i j k w).getD 0

theorem low_lt {i n : ℕ} (h : i < n) : low i < n := by
  unfold low; split <;> omega

theorem Shape3.get {X : Type} [Zero X] {nx ny nz : ℕ} {v : List (List (List X))}
    (h : Shape3 nx ny nz v) {i j k : ℕ} (hi : i < nx) (hj : j < ny) (hk : k < nz) :
    get3 v i j k = some (at3 v i j k) := by
  obtain ⟨e, he⟩ := h i j k hi hj hk
  simp [at3, he]

theorem Shape4.get {X : Type} [Zero X] {nx ny nz nt : ℕ} {v : List (List (List (List X)))}
    (h : Shape4 nx ny nz nt v) {i j k w : ℕ} (hi : i < nx) (hj : j < ny) (hk : k < nz) (hw : w < nt) :
    get4 v i j k w = some (at4 v i j k w) := by
  obtain ⟨e, he⟩ := h i j k w hi hj hk hw
  simp [at4, he]

theorem interp3_eq {nx ny nz : ℕ} {v : List (List (List V))} (h : Shape3 nx ny nz v) {i j k : ℕ}
    (hi : i < nx) (hj : j < ny) (hk : k < nz) (fx fy fz : K) :
    interp3 v i j k fx fy fz =
      some (lerp (bi (fun a b => at3 v a b (low k)) i j fx fy) (bi (fun a b => at3 v a b k) i j fx fy) fz) := by
  have hi' := low_lt hi
  have hj' := low_lt hj
  have hk' := low_lt hk
  simp only [interp3, h.get hi hj hk, h.get hi hj hk', h.get hi hj' hk, h.get hi hj' hk',
    h.get hi' hj hk, h.get hi' hj hk', h.get hi' hj' hk, h.get hi' hj' hk', Option.bind_eq_bind,
    Option.bind_some, Option.pure_def, bi]

theorem interp4_eq {nx ny nz nt : ℕ} {v : List (List (List (List V)))} (h : Shape4 nx ny nz nt v)
    {i j k w : ℕ} (hi : i < nx) (hj : j < ny) (hk : k < nz) (hw : w < nt) (fx fy fz fw : K) :
    interp4 v i j k w fx fy fz fw =
      some (lerp (tri (fun a b c => at4 v a b c (low w)) i j k fx fy fz)
        (tri (fun a b c => at4 v a b c w) i j k fx fy fz) fw) := by
  have hi' := low_lt hi
  have hj' := low_lt hj
  have hk' := low_lt hk
  have hw' := low_lt hw
  simp only [interp4, h.get hi hj hk hw, h.get hi hj hk' hw, h.get hi hj' hk hw, h.get hi hj' hk' hw,
    h.get hi' hj hk hw, h.get hi' hj hk' hw, h.get hi' hj' hk hw, h.get hi' hj' hk' hw,
    h.get hi hj hk hw', h.get hi hj hk' hw', h.get hi hj' hk hw', h.get hi hj' hk' hw',
    h.get hi' hj hk hw', h.get hi' hj hk' hw', h.get hi' hj' hk hw', h.get hi' hj' hk' hw',
    Option.bind_eq_bind, Option.bind_some, Option.pure_def, bi, tri, Option.some.injEq]
  simp only [lerp]
  module

theorem lerp_gt (b a c f : K) (h0 : 0 ≤ f) (h1 : f ≤ 1) (ha : b < a) (hc : b < c) : b < lerp a c f := by
  simp only [lerp, smul_eq_mul]
  rcases lt_or_eq_of_le h0 with h | h
  · nlinarith
  · subst h; linarith

theorem lerp_add (a b c d : V) (f : K) : lerp (a + c) (b + d) f = lerp a b f + lerp c d f := by
  simp only [lerp]; module

theorem lerp_zero (a b : V) : lerp a b (0 : K) = a := by simp [lerp]

theorem lerp_self (a : V) (f : K) : lerp a a f = a := by simp only [lerp]; module

theorem tri_add (F G : ℕ → ℕ → ℕ → V) (i j k : ℕ) (fx fy fz : K) :
    tri (fun a b c => F a b c + G a b c) i j k fx fy fz = tri F i j k fx fy fz + tri G i j k fx fy fz := by
  simp only [tri, bi, lerp_add]

theorem get4_map4 {A B : Type} (f : ℕ → ℕ → ℕ → ℕ → A → B) (v : List (List (List (List A))))
    (i j k w : ℕ) : get4 (map4 f v) i j k w = (get4 v i j k w).map (f i j k w) := by
  simp only [get4, get3, map4, Option.bind_eq_bind, List.getElem?_mapIdx]
  cases h1 : v[i]? with
  | none => simp
  | some a =>
    simp only [Option.map_some, Option.bind_some, List.getElem?_mapIdx]
    cases h2 : a[j]? with
    | none => simp
    | some b =>
      simp only [Option.map_some, Option.bind_some, List.getElem?_mapIdx]
      cases h3 : b[k]? with
      | none => simp
      | some c =>
        simp only [Option.map_some, Option.bind_some, List.getElem?_mapIdx]

theorem axisIndex_fold {S : Type} [DecidableEq S] (l : List S) (s : S) (n m0 : ℕ)
    (hnd : l.Nodup) (i : ℕ) (hi : l[i]? = some s) :
    (l.zipIdx n).foldl (fun m p => if p.1 = s then p.2 else m) m0 = n + i := by
  induction l generalizing n m0 i with
  | nil => simp at hi
  | cons a l ih =>
    rw [List.nodup_cons] at hnd
    rw [List.zipIdx_cons, List.foldl_cons]
    cases i with
    | zero =>
      simp only [List.getElem?_cons_zero, Option.some.injEq] at hi
      subst hi
      rw [if_pos rfl]
      have hno : ∀ (l : List S) (n m : ℕ), a ∉ l →
          (l.zipIdx n).foldl (fun m p => if p.1 = a then p.2 else m) m = m := by
        intro l
        induction l with
        | nil => intros; rfl
        | cons b l ih =>
          intro n m hm
          simp only [List.mem_cons, not_or] at hm
          rw [List.zipIdx_cons, List.foldl_cons, if_neg (fun h => hm.1 h.symm), ih _ _ hm.2]
      rw [hno l _ _ hnd.1]; rfl
    | succ i =>
      simp only [List.getElem?_cons_succ] at hi
      rw [ih (n + 1) _ hnd.2 i hi]; omega

/-- an axis without repeated ticks maps each of them to its position -/
theorem axisIndex_eq {S : Type} [DecidableEq S] (l : List S) (s : S) (hnd : l.Nodup) (i : ℕ)
    (hi : l[i]? = some s) : axisIndex l s = i := by
  unfold axisIndex
  rw [axisIndex_fold l s 0 0 hnd i hi]; omega

end MD.Waves
