import Verif.Props.LineType
import Verif.Model.CFL
import Mathlib.Algebra.BigOperators.Intervals
import Mathlib.Algebra.BigOperators.Field
import Mathlib.Algebra.Order.BigOperators.Group.Finset

/-!
# C91: the vibration of the segments described in docs/troubleshooting.rst
-/

set_option linter.unusedSimpArgs false
set_option linter.unusedVariables false
set_option linter.unusedSectionVars false

namespace MD.Mooring.LineType

open Finset Matrix MD.Mooring

/-- A straight line along `u` whose nodes, at distances `L0`, are displaced by `x i` along it and
move along it with the velocities `v i`. -/
structure Straight (B : Line) (r0 u : V) (L0 : ℝ) (x v : ℕ → ℝ) : Prop where
  unit : u ⬝ᵥ u = 1
  pos : ∀ i, B.r i = r0 + (i * L0 + x i) • u
  vel : ∀ i, B.rd i = v i • u

/-- Every segment is stretched. -/
def Taut (l L0 : ℝ) (x : ℕ → ℝ) : Prop := ∀ i, l < L0 + (x (i + 1) - x i)

theorem unitvector_along (a b u : V) (y : ℝ) (hy : 100 * eps / 2 < y) (hu : u ⬝ᵥ u = 1)
    (h : b - a = y • u) : unitvector a b = (u, y) := by
  have hy0 : 0 < y := lt_trans tol_pos hy
  have hn : norm (b - a) = y := by
    apply norm_eq _ _ hy0.le
    rw [h, dotProduct_smul, smul_dotProduct, hu]
    simp
  unfold unitvector
  dsimp only
  rw [hn, if_neg (by rw [equalRealNos_zero, abs_of_nonneg hy0.le]; linarith), h, smul_smul]
  have : 1 / y * y = 1 := by field_simp
  rw [this, one_smul]

section
variable (p : LineProps ℝ) (U : ℝ) (B : Line) (r0 u : V) (L0 EA BA : ℝ) (x v : ℕ → ℝ)
  (hs : Straight B r0 u L0 x v) (hEA : p.EA = .const EA) (hd : p.d ≠ 0)
  (hl : 100 * eps / 2 < lineLength U B / B.N) (ht : Taut (lineLength U B / B.N) L0 x)
include hs hEA hd hl ht

theorem straight_unit (i : ℕ) :
    unitvector (B.r i) (B.r (i + 1)) = (u, L0 + (x (i + 1) - x i)) := by
  apply unitvector_along _ _ _ _ (lt_trans hl (ht i)) hs.unit
  rw [hs.pos, hs.pos]
  push_cast
  module

theorem straight_tension (i : ℕ) :
    T (mkLine p U B) i =
      (EA * ((L0 + (x (i + 1) - x i)) / (lineLength U B / B.N) - 1)) • u := by
  have hu := straight_unit p U B r0 u L0 EA x v hs hEA hd hl ht i
  have hq : qs (mkLine p U B) i = u := congrArg Prod.fst hu
  have hls : lstr (mkLine p U B) i = L0 + (x (i + 1) - x i) := congrArg Prod.snd hu
  have hl0 : 0 < lineLength U B / B.N := lt_trans tol_pos hl
  have hA := area_pos p hd
  have hst : (mkLine p U B).stiff = none := by simp [mkLine, hEA, Coef.fn]
  have hE : (mkLine p U B).E = EA / area p := by simp [mkLine, modulus, hEA]
  have hll : (mkLine p U B).l i = lineLength U B / B.N := rfl
  have hAA : (mkLine p U B).A = area p := rfl
  unfold T getNonlinearE
  dsimp only
  rw [hst, hq, hls, hE, hll, hAA, if_pos ((one_lt_div hl0).2 (ht i)), div_mul_cancel₀ _ hA.ne']
  congr 1
  generalize lineLength U B / (B.N : ℝ) = l at hl0
  have := hl0.ne'
  field_simp

theorem straight_rate (i : ℕ) : ldstr B i = v (i + 1) - v i := by
  have hu := straight_unit p U B r0 u L0 EA x v hs hEA hd hl ht i
  have hq : qs B i = u := congrArg Prod.fst hu
  unfold ldstr
  rw [hq, hs.vel, hs.vel, ← sub_smul, dotProduct_smul, hs.unit]
  simp

/-- the internal damping of the manual, docs/troubleshooting.rst:34-37 and 47-52: the entry `c`, or
the value that gives the damping ratio `-c` -/
noncomputable def manualBA (c EA w l : ℝ) : ℝ := if c < 0 then -c * l * Real.sqrt (EA * w) else c

theorem straight_damping (c : ℝ) (hc : p.c = .const c) (hE0 : 0 ≤ EA) (hw : 0 < p.w) (i : ℕ) :
    Td (mkLine p U B) i =
      some ((manualBA c EA p.w (lineLength U B / B.N) * (v (i + 1) - v i) /
        (lineLength U B / B.N)) • u) := by
  have hu := straight_unit p U B r0 u L0 EA x v hs hEA hd hl ht i
  have hq : qs B i = u := congrArg Prod.fst hu
  have hr := straight_rate p U B r0 u L0 EA x v hs hEA hd hl ht i
  have hl0 : 0 < lineLength U B / B.N := lt_trans tol_pos hl
  unfold manualBA
  by_cases h : c < 0
  · have hz : p.c = .const (-(-c)) := by rw [hc, neg_neg]
    rw [if_pos h, C82_damping_ratio p U B i (-c) EA hz (by linarith) hEA hE0 hw hd hl0, hq, hr]
    set l := lineLength U B / B.N with hlv
    have hl0' : l ≠ 0 := hl0.ne'
    have e1 : EA / l * (p.w * l / 2 * (p.w * l / 2) / (p.w * l / 2 + p.w * l / 2)) = EA * p.w / 4 := by
      field_simp
      ring
    rw [e1, Real.sqrt_div' _ (by norm_num), show (4 : ℝ) = 2 ^ 2 by norm_num,
      Real.sqrt_sq (by norm_num)]
    congr 2
    field_simp
  · rw [if_neg h, C82_damping p U B i c hc (not_lt.1 h) hd, hq, hr, mul_div_assoc]

/-- **C91** (force on a node): the stretched segments of a straight line are springs of stiffness
`EA / l` and dampers `BA / l`. -/
theorem C91_node_force (c : ℝ) (hc : p.c = .const c) (hE0 : 0 ≤ EA) (hw : 0 < p.w) (i : ℕ)
    (h0 : i ≠ 0) (hN : i ≠ B.N) :
    let l := lineLength U B / B.N
    let BA := manualBA c EA p.w l
    axial (mkLine p U B) i =
      some ((EA / l * (x (i + 1) - 2 * x i + x (i - 1)) +
        BA / l * (v (i + 1) - 2 * v i + v (i - 1))) • u) := by
  intro l BA
  have hl0 : l ≠ 0 := (lt_trans tol_pos hl).ne'
  obtain ⟨j, rfl⟩ := Nat.exists_eq_succ_of_ne_zero h0
  have hT := fun k => straight_tension p U B r0 u L0 EA x v hs hEA hd hl ht k
  have hD := fun k => straight_damping p U B r0 u L0 EA x v hs hEA hd hl ht c hc hE0 hw k
  unfold axial
  rw [if_neg h0, if_neg (show ¬ j.succ = (mkLine p U B).N from hN)]
  simp only [Nat.succ_eq_add_one, Nat.add_sub_cancel, hT, hD, Option.bind_eq_bind,
    Option.bind_some, Option.pure_def]
  congr 1
  change (EA * ((L0 + (x (j + 1 + 1) - x (j + 1))) / l - 1)) • u -
    (EA * ((L0 + (x (j + 1) - x j)) / l - 1)) • u +
    (BA * (v (j + 1 + 1) - v (j + 1)) / l) • u - (BA * (v (j + 1) - v j) / l) • u = _
  rw [← sub_smul, ← add_smul, ← sub_smul]
  congr 1
  field_simp
  ring

omit hs hEA hl ht in
/-- **C91** (mass of a node): the mass of an inner node is `w L / N`. -/
theorem C91_node_mass (i : ℕ) (h0 : i ≠ 0) (hN : i ≠ B.N) :
    m (mkLine p U B) i = p.w * (lineLength U B / B.N) := by
  have hA := area_pos p hd
  unfold m adjacent
  rw [if_neg h0, if_neg (show ¬ i = (mkLine p U B).N from hN)]
  change Real.pi / 8 * (p.d * p.d * (p.w / area p) *
    (lineLength U B / B.N + lineLength U B / B.N)) = _
  have e : Real.pi / 8 * (p.d * p.d * (p.w / area p) *
    (lineLength U B / B.N + lineLength U B / B.N)) =
    (Real.pi / 4 * p.d * p.d) / area p * (p.w * (lineLength U B / B.N)) := by ring
  rw [e, show Real.pi / 4 * p.d * p.d = area p from rfl, div_self hA.ne', one_mul]

/-- **C91** (the mode of the manual): if adjacent nodes oscillate out of phase, each inner node
moves as a mass `m = w L / N` with the stiffness `k = 4 EA N / L` and the damping `4 BA N / L`. -/
theorem C91_mode (c : ℝ) (hc : p.c = .const c) (hE0 : 0 ≤ EA) (hw : 0 < p.w) (i : ℕ)
    (h0 : i ≠ 0) (hN : i ≠ B.N) (hx : x (i + 1) = -x i ∧ x (i - 1) = -x i)
    (hv : v (i + 1) = -v i ∧ v (i - 1) = -v i) :
    let l := lineLength U B / B.N
    axial (mkLine p U B) i =
      some ((-(4 * EA / l) * x i - 4 * manualBA c EA p.w l / l * v i) • u) := by
  intro l
  have h := C91_node_force p U B r0 u L0 EA x v hs hEA hd hl ht c hc hE0 hw i h0 hN
  dsimp only at h
  rw [h, hx.1, hx.2, hv.1, hv.2]
  congr 2
  change EA / l * _ + manualBA c EA p.w l / l * _ = _
  ring
end

/-- **C91** (damping ratio): a negative entry `-zeta` gives the mode the damping
`zeta 2 sqrt(k m)`. -/
theorem C91_damping_ratio (zeta EA w l : ℝ) (hz : 0 < zeta) (hE : 0 ≤ EA) (hw : 0 < w)
    (hl : 0 < l) :
    4 * manualBA (-zeta) EA w l / l = zeta * (2 * Real.sqrt (4 * EA / l * (w * l))) := by
  unfold manualBA
  rw [if_pos (by linarith), show 4 * EA / l * (w * l) = 2 ^ 2 * (EA * w) by field_simp; ring,
    Real.sqrt_mul (by norm_num : (0 : ℝ) ≤ 2 ^ 2), Real.sqrt_sq (by norm_num : (0 : ℝ) ≤ 2)]
  field_simp
  ring

theorem sum_shift (f : ℕ → ℝ) (N : ℕ) (hN : 1 ≤ N) (h0 : f 0 = 0) (hf : f N = 0) :
    ∑ i ∈ range N, f (i + 1) = ∑ i ∈ range N, f i := by
  have h1 := sum_range_succ f N
  have h2 := sum_range_succ' f N
  linarith

/-- **C91** (the highest mode): whatever the number of segments, no natural mode of a line held at
its ends has a frequency above `2 N / L sqrt(EA / w)`. A mode is a non-null displacement for which
the elastic force of each node is `-omega² m` times its displacement. -/
theorem C91_highest (N : ℕ) (x : ℕ → ℝ) (EA w l om : ℝ) (hE : 0 < EA) (hw : 0 < w) (hl : 0 < l)
    (h0 : x 0 = 0) (hN : x N = 0) (hne : ∃ i < N, x i ≠ 0)
    (hm : ∀ i, i ≠ 0 → i < N →
      EA / l * (x (i + 1) - 2 * x i + x (i - 1)) = -(om ^ 2 * (w * l)) * x i) :
    om ^ 2 ≤ (2 / l * Real.sqrt (EA / w)) ^ 2 := by
  obtain ⟨i0, hi0, hx0⟩ := hne
  have hN1 : 1 ≤ N := by omega
  have hsq : (2 / l * Real.sqrt (EA / w)) ^ 2 = 4 * EA / (w * l ^ 2) := by
    rw [mul_pow, Real.sq_sqrt (by positivity)]
    field_simp
    norm_num
  rw [hsq]
  -- multiply by the displacement and add
  have hS : 0 < ∑ i ∈ range N, x i ^ 2 := by
    apply sum_pos' (fun i _ => sq_nonneg _)
    exact ⟨i0, mem_range.2 hi0, by positivity⟩
  have key : ∀ i ∈ range N, om ^ 2 * (w * l) * x i ^ 2 ≤
      EA / l * (2 * x i ^ 2 - x i * x (i + 1) - x i * x (i - 1)) := by
    intro i hi
    by_cases h : i = 0
    · subst h
      rw [h0]
      simp
    · have := hm i h (mem_range.1 hi)
      apply le_of_eq
      have e : om ^ 2 * (w * l) * x i ^ 2 = -(EA / l * (x (i + 1) - 2 * x i + x (i - 1))) * x i := by
        rw [this]; ring
      rw [e]
      ring
  have hsum := sum_le_sum key
  rw [← mul_sum, ← mul_sum] at hsum
  have s1 : ∑ i ∈ range N, x (i + 1) ^ 2 = ∑ i ∈ range N, x i ^ 2 :=
    sum_shift (fun i => x i ^ 2) N hN1 (by simp [h0]) (by simp [hN])
  have s2 : ∑ i ∈ range N, x (i - 1) ^ 2 ≤ ∑ i ∈ range N, x i ^ 2 := by
    obtain ⟨n, rfl⟩ := Nat.exists_eq_succ_of_ne_zero (by omega : N ≠ 0)
    rw [sum_range_succ', sum_range_succ (fun i => x i ^ 2)]
    simp only [Nat.add_sub_cancel, h0]
    simpa using sq_nonneg (x n)
  have s3 : ∑ i ∈ range N, (2 * x i ^ 2 - x i * x (i + 1) - x i * x (i - 1)) ≤
      ∑ i ∈ range N, (3 * x i ^ 2 + (x (i + 1) ^ 2 + x (i - 1) ^ 2) / 2) := by
    apply sum_le_sum
    intro i _
    nlinarith [sq_nonneg (x i + x (i + 1)), sq_nonneg (x i + x (i - 1))]
  have s4 : ∑ i ∈ range N, (3 * x i ^ 2 + (x (i + 1) ^ 2 + x (i - 1) ^ 2) / 2) ≤
      4 * ∑ i ∈ range N, x i ^ 2 := by
    rw [sum_add_distrib, ← mul_sum, ← Finset.sum_div, sum_add_distrib, s1]
    linarith
  have s5 : om ^ 2 * (w * l) * ∑ i ∈ range N, x i ^ 2 ≤
      EA / l * (4 * ∑ i ∈ range N, x i ^ 2) :=
    hsum.trans (mul_le_mul_of_nonneg_left (s3.trans s4) (by positivity))
  have s6 : om ^ 2 * (w * l) ≤ 4 * (EA / l) := by nlinarith
  rw [le_div_iff₀ (by positivity)]
  have : 4 * (EA / l) * l = 4 * EA := by field_simp
  nlinarith

/-- The natural period of the manual, docs/troubleshooting.rst:27-31 and 73-77 -/
noncomputable def manualPeriod (EA w l : ℝ) : ℝ := 2 * Real.pi / (2 / l * Real.sqrt (EA / w))

/-- **C91** is false of the factor CFL, documented (docs/inputs.rst:556-558) as the ratio of the
time step and that natural period: the code uses the stiffness `EA N / L` instead of `4 EA N / L`,
so a factor `cfl` gives the step `2 cfl` periods. -/
theorem C91_cfl_false (EA w l cfl big : ℝ) (hE : 0 < EA) (hw : 0 < w) (hl : 0 < l) :
    (MD.CFL.Obj.line (EA / l) (w * l)).cfl2dt big cfl = 2 * cfl * manualPeriod EA w l := by
  simp only [MD.CFL.Obj.cfl2dt, MD.CFL.period, manualPeriod]
  have : Real.sqrt (EA / l / (w * l)) = Real.sqrt (EA / w) / l := by
    rw [show EA / l / (w * l) = EA / w / l ^ 2 by field_simp, Real.sqrt_div' _ (by positivity),
      Real.sqrt_sq hl.le]
  rw [this]
  have hsp : 0 < Real.sqrt (EA / w) := Real.sqrt_pos.2 (by positivity)
  field_simp

/-- Non-vacuity of `C91_node_force` and `C91_mode`: four segments of 1 m drawn to 2 m, the nodes
1/10 m from their places. -/
noncomputable def vibrating : Line :=
  { elbow with
    N := 4
    r := fun i => 0 + ((i : ℝ) * 2 + (-1 : ℝ) ^ i * (1 / 10)) • ![1, 0, 0]
    rd := fun i => ((-1 : ℝ) ^ i * 3) • ![1, 0, 0] }

example : Straight vibrating 0 ![1, 0, 0] 2 (fun i => (-1) ^ i * (1 / 10)) (fun i => (-1) ^ i * 3) ∧
    lineLength 4 vibrating / vibrating.N = 1 ∧ 100 * eps / 2 < lineLength 4 vibrating / vibrating.N ∧
    Taut (lineLength 4 vibrating / vibrating.N) 2 (fun i => (-1) ^ i * (1 / 10)) := by
  have h1 : lineLength 4 vibrating / vibrating.N = 1 := by
    unfold lineLength
    rw [if_neg (by norm_num), show vibrating.N = 4 from rfl]
    norm_num
  refine ⟨⟨by simp, fun i => rfl, fun i => rfl⟩, h1, by rw [h1]; exact tol_lt_one, ?_⟩
  rw [h1]
  intro i
  dsimp only
  rcases Nat.even_or_odd i with h | h
  · rw [pow_succ, h.neg_one_pow]; norm_num
  · rw [pow_succ, h.neg_one_pow]; norm_num

/-- Non-vacuity of `C91_highest`: two segments, the middle node has the frequency `sqrt 2 / 2` of the
bound. -/
example : ∃ x : ℕ → ℝ, x 0 = 0 ∧ x 2 = 0 ∧ (∃ i < 2, x i ≠ 0) ∧ ∀ i, i ≠ 0 → i < 2 →
    (1 : ℝ) / 1 * (x (i + 1) - 2 * x i + x (i - 1)) = -(Real.sqrt 2 ^ 2 * (1 * 1)) * x i := by
  refine ⟨fun i => if i = 1 then 1 else 0, by simp, by simp, ⟨1, by norm_num, by simp⟩, ?_⟩
  intro i h0 h2
  have : i = 1 := by omega
  subst this
  rw [Real.sq_sqrt (by norm_num)]
  simp

end MD.Mooring.LineType
