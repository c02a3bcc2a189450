import Verif.Props.Rod
import Verif.Props.Rotation
import Mathlib.LinearAlgebra.Matrix.DotProduct

/-!
# Rods: input coordinates (C38)
-/

set_option linter.unusedSimpArgs false
set_option linter.unusedVariables false

namespace MD.Rods

open Matrix MD.Mat MD.Rot MD.Mooring Finset

theorem normalized_unit {u : V} (hu : u ⬝ᵥ u = 1) : normalized u = u := by
  unfold normalized
  rw [if_pos (by rw [hu]; norm_num), norm_eq u 1 (by norm_num) (by rw [hu]; norm_num)]
  simp

theorem normalized_dot {u : V} (hu : 0 < u ⬝ᵥ u) : normalized u ⬝ᵥ normalized u = 1 := by
  unfold normalized
  rw [if_pos hu, smul_dotProduct, dotProduct_smul]
  have h := norm_sq u
  have hn : Mooring.norm u ≠ 0 := by
    intro h0
    rw [h0] at h
    have : u ⬝ᵥ u = 0 := by rw [← h]; ring
    linarith
  simp only [smul_eq_mul]
  field_simp
  rw [← h]

/-- The quaternion of Eigen takes the first vector to the second -/
theorem rotates {u b : V} (hu : u ⬝ᵥ u = 1) (hb : b ⬝ᵥ b = 1) {q : Quat ℝ}
    (h : fromTwoVectors u b = some q) : orMat q *ᵥ u = b := by
  unfold fromTwoVectors at h
  rw [normalized_unit hu, normalized_unit hb] at h
  simp only at h
  split_ifs at h with hc
  simp only [Option.some.injEq] at h
  have hpos : 0 < (1 + b ⬝ᵥ u) * 2 := by
    push Not at hc
    have : (0 : ℝ) < 1 / 10 ^ 12 := by norm_num
    linarith
  set s := Real.sqrt ((1 + b ⬝ᵥ u) * 2) with hs
  have hss : s * s = (1 + b ⬝ᵥ u) * 2 := Real.mul_self_sqrt hpos.le
  have hsp : 0 < s := Real.sqrt_pos.mpr hpos
  set k := 1 / s with hk
  have hks : k * s = 1 := by rw [hk]; field_simp
  have hu' : u 0 * u 0 + u 1 * u 1 + u 2 * u 2 = 1 := by
    simpa [dotProduct, Fin.sum_univ_three] using hu
  have hb' : b 0 * b 0 + b 1 * b 1 + b 2 * b 2 = 1 := by
    simpa [dotProduct, Fin.sum_univ_three] using hb
  have hss' : s * s = (1 + (b 0 * u 0 + b 1 * u 1 + b 2 * u 2)) * 2 := by
    simpa [dotProduct, Fin.sum_univ_three] using hss
  have hq : q = ⟨s / 2, (u 1 * b 2 - u 2 * b 1) * k, (u 2 * b 0 - u 0 * b 2) * k,
      (u 0 * b 1 - u 1 * b 0) * k⟩ := by
    rw [← h]; simp [cross_apply]
  clear h hs hc hk
  have hn : q.normSq = 1 := by
    rw [hq]
    simp only [Quat.normSq]
    grobner
  have hnorm : q.normalized = q := by
    unfold Quat.normalized
    rw [if_pos (by rw [hn]; norm_num), hn]
    simp [Quat.smul]
  unfold orMat
  rw [hnorm, hq]
  clear hq hn hnorm q hpos hsp hu hb hss
  funext i
  fin_cases i <;>
    simp [Quat.toMat, Matrix.mulVec, dotProduct, Fin.sum_univ_three] <;>
    generalize u 0 = u0 at * <;> generalize u 1 = u1 at * <;> generalize u 2 = u2 at * <;>
    generalize b 0 = b0 at * <;> generalize b 1 = b1 at * <;> generalize b 2 = b2 at * <;>
    clear_value s k <;> clear u b <;> grobner

theorem orMat_one : orMat Quat.one = 1 := by
  have hn : (Quat.one : Quat ℝ).normSq = 1 := by simp [Quat.normSq, Quat.one]
  have : (Quat.one : Quat ℝ).normalized = Quat.one := by
    unfold Quat.normalized
    rw [if_pos (by rw [hn]; norm_num), hn]
    simp [Quat.smul, Quat.one]
  unfold orMat
  rw [this]
  ext i j
  fin_cases i <;> fin_cases j <;> simp [Quat.toMat, Quat.one]

/-- The ends are told apart by `unitvector` (more than 1e-14 m, `EqualRealNos`) -/
def Apart (A B : V) : Prop := ¬ EqualRealNos (Mooring.norm (B - A)) 0

theorem apart_pos {A B : V} (h : Apart A B) : 0 < Mooring.norm (B - A) := by
  rcases (Mooring.norm_nonneg (B - A)).lt_or_eq with h1 | h1
  · exact h1
  · exfalso
    apply h
    rw [← h1]
    unfold EqualRealNos eps
    simp
    positivity

theorem unitvector_apart {A B : V} (h : Apart A B) :
    unitvector A B = ((1 / Mooring.norm (B - A)) • (B - A), Mooring.norm (B - A)) := by
  unfold unitvector
  simp only
  rw [if_neg h]

theorem unit_apart {A B : V} (h : Apart A B) :
    ((1 / Mooring.norm (B - A)) • (B - A)) ⬝ᵥ ((1 / Mooring.norm (B - A)) • (B - A)) = 1 := by
  have h1 := apart_pos h
  have h2 := norm_sq (B - A)
  rw [smul_dotProduct, dotProduct_smul, ← h2]
  simp only [smul_eq_mul]
  field_simp

/-- C38: once the state of a free rod has been set (at the first evaluation of a time scheme or
initial condition run) its ends are at the coordinates of the input file. -/
theorem C38_state_ends {A B : V} (h : Apart A B) : stateEnds A B = (A, B) := by
  unfold stateEnds
  simp only [unitvector_apart h, orMat_one, Matrix.one_mulVec, smul_smul]
  have := (apart_pos h).ne'
  rw [mul_one_div_cancel this, one_smul]
  simp

/-- Where end B of a rod is after initialisation: in the direction of the position vector of end B,
instead of that from A to B. -/
theorem start_ends {A B : V} (h : Apart A B) (hB : B ≠ 0) {p : V × V}
    (hs : startEnds A B = some p) :
    p = (A, A + Mooring.norm (B - A) • normalized B) := by
  have hBB : 0 < B ⬝ᵥ B := by
    have h1 : 0 ≤ B ⬝ᵥ B := by rw [← norm_sq]; exact sq_nonneg _
    rcases h1.lt_or_eq with h2 | h2
    · exact h2
    · exact absurd (dotProduct_self_eq_zero.mp h2.symm) hB
  unfold startEnds at hs
  simp only [unitvector_apart h] at hs
  rw [Option.map_eq_some_iff] at hs
  obtain ⟨q, hq, rfl⟩ := hs
  have hq' : fromTwoVectors ((1 / Mooring.norm (B - A)) • (B - A)) (normalized B) = some q := by
    rw [← hq]
    unfold fromTwoVectors
    rw [normalized_unit (normalized_dot hBB)]
  rw [rotates (unit_apart h) (normalized_dot hBB) hq']

/-- C38: the ends are right after initialisation if A, B and the origin are aligned, with the
origin on the side of A. -/
theorem C38_start_partial {A B : V} (h : Apart A B) {t : ℝ} (ht : 0 < t) (hAB : B = t • (B - A)) :
    startEnds A B = some (A, B) := by
  have hpos := apart_pos h
  have hn2 := norm_sq (B - A)
  have hBn : Mooring.norm B = t * Mooring.norm (B - A) := by
    apply norm_eq _ _ (by positivity)
    conv_lhs => rw [hAB]
    rw [smul_dotProduct, dotProduct_smul, ← hn2]
    simp only [smul_eq_mul]; ring
  have hB : B ≠ 0 := by
    intro h0
    have : Mooring.norm B = 0 := by rw [h0]; simp [Mooring.norm]
    rw [this] at hBn
    have := mul_pos ht hpos
    linarith
  have hBB : 0 < B ⬝ᵥ B := by
    rw [← norm_sq, hBn]; positivity
  have hnB : normalized B = (1 / Mooring.norm (B - A)) • (B - A) := by
    unfold normalized
    rw [if_pos hBB, hBn]
    conv_lhs => rw [show (1 / (t * Mooring.norm (B - A))) • B
      = (1 / (t * Mooring.norm (B - A))) • (t • (B - A)) by rw [← hAB]]
    rw [smul_smul]
    congr 1
    field_simp
  have hex : ∃ q, fromTwoVectors ((1 / Mooring.norm (B - A)) • (B - A)) B = some q := by
    unfold fromTwoVectors
    rw [normalized_unit (unit_apart h), hnB]
    simp only
    rw [unit_apart h, if_neg (by norm_num)]
    exact ⟨_, rfl⟩
  obtain ⟨q, hq⟩ := hex
  have hs : startEnds A B = some (A, A + Mooring.norm (B - A) •
      (orMat q *ᵥ ((1 / Mooring.norm (B - A)) • (B - A)))) := by
    unfold startEnds
    simp only [unitvector_apart h, hq, Option.map_some]
  have h2 := start_ends h hB hs
  rw [hs, h2, hnB, smul_smul, mul_one_div_cancel hpos.ne', one_smul]
  simp

/-- C38 fails for every other rod: the end B it is given at initialisation (and which is passed to
the lines attached there) is not that of the input file. -/
theorem C38_start_false {A B : V} (h : Apart A B) (hB : B ≠ 0)
    (hAB : ¬ ∃ t : ℝ, 0 < t ∧ B - A = t • B) {p : V × V} (hs : startEnds A B = some p) :
    p.2 ≠ B := by
  rw [start_ends h hB hs]
  intro hc
  have hc : A + Mooring.norm (B - A) • normalized B = B := hc
  apply hAB
  have hBB : 0 < B ⬝ᵥ B := by
    have h1 : 0 ≤ B ⬝ᵥ B := by rw [← norm_sq]; exact sq_nonneg _
    rcases h1.lt_or_eq with h2 | h2
    · exact h2
    · exact absurd (dotProduct_self_eq_zero.mp h2.symm) hB
  have hn : 0 < Mooring.norm B := Real.sqrt_pos.mpr hBB
  refine ⟨Mooring.norm (B - A) * (1 / Mooring.norm B), mul_pos (apart_pos h) (by positivity), ?_⟩
  rw [← smul_smul]
  have h3 : normalized B = (1 / Mooring.norm B) • B := by unfold normalized; rw [if_pos hBB]
  rw [← h3]
  rw [eq_comm, ← sub_eq_iff_eq_add'] at hc
  exact hc

theorem norm_35 : Mooring.norm ((![0, 4, 0] : V) - ![3, 0, 0]) = 5 :=
  norm_eq _ 5 (by norm_num) (by simp [dotProduct, Fin.sum_univ_three]; norm_num)

theorem apart_35 : Apart ![3, 0, 0] ![0, 4, 0] := by
  unfold Apart
  rw [norm_35]
  unfold EqualRealNos eps
  norm_num

/-- A rod from (3, 0, 0) to (0, 4, 0), 5 m long, starts with its end B at (3, 5, 0). -/
theorem C38_example : startEnds ![3, 0, 0] ![0, 4, 0] = some (![3, 0, 0], ![3, 5, 0]) := by
  have hex : ∃ p, startEnds ![3, 0, 0] ![0, 4, 0] = some p := by
    unfold startEnds fromTwoVectors
    simp only [unitvector_apart apart_35]
    rw [normalized_unit (unit_apart apart_35), norm_35]
    have h4 : normalized (![0, 4, 0] : V) = ![0, 1, 0] := by
      unfold normalized
      rw [if_pos (by simp [dotProduct, Fin.sum_univ_three]),
        norm_eq _ 4 (by norm_num) (by simp [dotProduct, Fin.sum_univ_three])]
      funext k; fin_cases k <;> simp
    rw [h4, if_neg (by simp [dotProduct, Fin.sum_univ_three]; norm_num)]
    exact ⟨_, rfl⟩
  obtain ⟨p, hp⟩ := hex
  rw [hp, start_ends apart_35 (by intro h; have := congrFun h 1; simp at this) hp, norm_35]
  have h4 : normalized (![0, 4, 0] : V) = ![0, 1, 0] := by
    unfold normalized
    rw [if_pos (by simp [dotProduct, Fin.sum_univ_three]),
      norm_eq _ 4 (by norm_num) (by simp [dotProduct, Fin.sum_univ_three])]
    funext k; fin_cases k <;> simp
  rw [h4]
  simp only [Option.some.injEq, Prod.mk.injEq, true_and]
  funext k; fin_cases k <;> simp

/-- The hypotheses of `C38_start_false` for it -/
example : Apart ![3, 0, 0] ![0, 4, 0] ∧ (![0, 4, 0] : V) ≠ 0 ∧
    ¬ ∃ t : ℝ, 0 < t ∧ (![0, 4, 0] : V) - ![3, 0, 0] = t • ![0, 4, 0] := by
  refine ⟨apart_35, by intro h; have := congrFun h 1; simp at this, ?_⟩
  rintro ⟨t, -, h⟩
  have := congrFun h 0
  simp at this

/-- A vertical rod under the origin, drawn upwards from 20 m to 10 m over it -/
example : Apart ![0, 0, 10] ![0, 0, 20] ∧ (![0, 0, 20] : V) = (2 : ℝ) • (![0, 0, 20] - ![0, 0, 10]) := by
  constructor
  · unfold Apart
    rw [norm_eq _ 10 (by norm_num) (by simp [dotProduct, Fin.sum_univ_three]; norm_num)]
    unfold EqualRealNos eps
    norm_num
  · funext k; fin_cases k <;> simp; norm_num

end MD.Rods
