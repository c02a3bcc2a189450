import Verif.Props.LineForces

/-!
# C93: internal pressure and tabulated bending moments of a line
-/

set_option linter.unusedSimpArgs false
set_option linter.unusedVariables false

namespace MD.Mooring

open Finset Matrix

/-- Pressure inside the line less the one of the water outside: weight of the water above and dynamic
pressure of the waves -/
noncomputable def overpressure (L : Line) (e : Env) (i : ℕ) : ℝ :=
  L.pin i - (e.rho_w * e.g * max 0 (e.zeta i - L.r i 2) + e.pdyn i)

/-- The line is bent at an inner node, well beyond the tolerances of the code. -/
structure Bent (L : Line) (i : ℕ) : Prop where
  inner : i ≠ 0 ∧ i < L.N
  long : 100 * eps / 2 < lstr L (i - 1) ∧ 100 * eps / 2 < lstr L i
  curved : ¬ EqualRealNos (Kurv L i) 0
  normal : 100 * eps / 2 < norm (qs L (i - 1) ⨯₃ qs L i)
  open_ : 100 * eps / 2 < norm (L.r (i + 1) - L.r (i - 1))

theorem cross_cross_sum (a b : V) (s t : ℝ) :
    (s • a + t • b) ⨯₃ (a ⨯₃ b) = (s * (a ⬝ᵥ b) + t * (b ⬝ᵥ b)) • a - (s * (a ⬝ᵥ a) + t * (a ⬝ᵥ b)) • b := by
  ext k
  fin_cases k <;>
    simp [cross_apply, dotProduct, Fin.sum_univ_three] <;> ring

theorem cross_norm_sq (a b : V) :
    (a ⨯₃ b) ⬝ᵥ (a ⨯₃ b) = (a ⬝ᵥ a) * (b ⬝ᵥ b) - (a ⬝ᵥ b) ^ 2 := by
  simp [cross_apply, dotProduct, Fin.sum_univ_three]
  ring

section
variable (L : Line) (e : Env) (i : ℕ) (hb : Bent L i) (hP : L.isPb = true)
include hb

theorem chord_eq : L.r (i + 1) - L.r (i - 1) = lstr L (i - 1) • qs L (i - 1) + lstr L i • qs L i := by
  obtain ⟨⟨h0, hN⟩, ⟨h1, h2⟩, _, _, _⟩ := hb
  obtain ⟨j, rfl⟩ := Nat.exists_eq_succ_of_ne_zero h0
  simp only [Nat.succ_eq_add_one, Nat.add_sub_cancel] at *
  rw [lstr_smul_qs L j h1, lstr_smul_qs L (j + 1) h2]
  abel

theorem q_bent : q L i = (1 / norm (L.r (i + 1) - L.r (i - 1))) •
    (lstr L (i - 1) • qs L (i - 1) + lstr L i • qs L i) := by
  have h := hb.open_
  unfold q unitvector
  rw [if_neg hb.inner.1, if_neg hb.inner.2.ne]
  dsimp only
  rw [if_neg, chord_eq L i hb]
  rw [equalRealNos_zero, abs_of_nonneg (norm_nonneg _)]
  exact not_le.2 h

theorem pvec_bent : pvec L i = (1 / norm (qs L (i - 1) ⨯₃ qs L i)) • (qs L (i - 1) ⨯₃ qs L i) := by
  rw [pvec_inner L i hb.inner.1 hb.inner.2.ne hb.curved, if_neg]
  rw [equalRealNos_zero, abs_of_nonneg (norm_nonneg _)]
  exact not_le.2 hb.normal

include hP in
theorem kurv_bent : Kurv L i = 4 / (lstr L (i - 1) + lstr L i) *
    Real.sqrt (1 / 2 * (1 - qs L (i - 1) ⬝ᵥ qs L i)) := by
  have hc := hb.curved
  unfold Kurv at hc ⊢
  rw [if_pos (Or.inr hP), if_neg hb.inner.1, if_neg hb.inner.2.ne] at hc ⊢
  unfold getCurvature at hc ⊢
  split
  · rename_i h
    rw [if_pos h] at hc
    exact absurd (by rw [equalRealNos_zero, abs_zero]; exact tol_pos.le) hc
  · rfl

/-- Half the change of direction -/
theorem turn_sq : norm (qs L i - qs L (i - 1)) = 2 *
    Real.sqrt (1 / 2 * (1 - qs L (i - 1) ⬝ᵥ qs L i)) := by
  have h1 := qs_unit L (i - 1) hb.long.1
  have h2 := qs_unit L i hb.long.2
  have hn := dot_self_nonneg (qs L i - qs L (i - 1))
  have e1 : (qs L i - qs L (i - 1)) ⬝ᵥ (qs L i - qs L (i - 1)) =
      2 * (1 - qs L (i - 1) ⬝ᵥ qs L i) := by
    rw [sub_dotProduct, dotProduct_sub, dotProduct_sub, h1, h2, dotProduct_comm (qs L i) (qs L (i - 1))]
    ring
  rw [e1] at hn
  apply norm_eq _ _ (by positivity)
  rw [e1]
  have := Real.mul_self_sqrt (show (0 : ℝ) ≤ 1 / 2 * (1 - qs L (i - 1) ⬝ᵥ qs L i) by linarith)
  nlinarith

include hP in
/-- **C93** (size): the force of the pressure on a node where the line is bent is pressure times area
times the change of direction, scaled by unstretched over stretched length. -/
theorem C93_pressure_size (hA : 0 ≤ L.A) (hl : 0 ≤ L.l (i - 1) ∧ 0 ≤ L.l i) :
    norm (Pb L e i) = L.A * |overpressure L e i| * norm (qs L i - qs L (i - 1)) *
      ((L.l (i - 1) + L.l i) / (lstr L (i - 1) + lstr L i)) := by
  have h1 := qs_unit L (i - 1) hb.long.1
  have h2 := qs_unit L i hb.long.2
  have hs1 : 0 < lstr L (i - 1) := lt_trans tol_pos hb.long.1
  have hs2 : 0 < lstr L i := lt_trans tol_pos hb.long.2
  have hn0 : 0 < norm (qs L (i - 1) ⨯₃ qs L i) := lt_trans tol_pos hb.normal
  have hc0 : 0 < norm (L.r (i + 1) - L.r (i - 1)) := lt_trans tol_pos hb.open_
  have hu : norm (q L i ⨯₃ pvec L i) = 1 := by
    apply norm_eq _ _ zero_le_one
    rw [cross_norm_sq]
    have hqq : q L i ⬝ᵥ q L i = 1 := by
      rw [q_bent L i hb, ← chord_eq L i hb, smul_dotProduct, dotProduct_smul, ← norm_sq]
      simp only [smul_eq_mul]
      field_simp
    have hpp : pvec L i ⬝ᵥ pvec L i = 1 := by
      rw [pvec_bent L i hb, smul_dotProduct, dotProduct_smul, ← norm_sq]
      simp only [smul_eq_mul]
      field_simp
    have hqp : q L i ⬝ᵥ pvec L i = 0 := by
      rw [q_bent L i hb, pvec_bent L i hb, smul_dotProduct, dotProduct_smul, add_dotProduct,
        smul_dotProduct, smul_dotProduct, dot_self_cross, dot_cross_self]
      simp
    rw [hqq, hpp, hqp]
    norm_num
  unfold Pb
  rw [if_pos ⟨hP, hb.curved⟩]
  dsimp only
  rw [norm_smul, hu, mul_one, kurv_bent L i hb hP, turn_sq L i hb]
  have hadj : adjacent L.N L.l i = L.l i + L.l (i - 1) := by
    unfold adjacent
    rw [if_neg hb.inner.1, if_neg hb.inner.2.ne]
  rw [hadj]
  change |1 / 2 * L.A * (L.l i + L.l (i - 1)) * overpressure L e i *
    (4 / (lstr L (i - 1) + lstr L i) * Real.sqrt (1 / 2 * (1 - qs L (i - 1) ⬝ᵥ qs L i)))| = _
  set w := Real.sqrt (1 / 2 * (1 - qs L (i - 1) ⬝ᵥ qs L i)) with hw
  have hw0 : 0 ≤ w := Real.sqrt_nonneg _
  rw [show 1 / 2 * L.A * (L.l i + L.l (i - 1)) * overpressure L e i *
    (4 / (lstr L (i - 1) + lstr L i) * w) = (1 / 2 * L.A * (L.l i + L.l (i - 1)) *
    (4 / (lstr L (i - 1) + lstr L i) * w)) * overpressure L e i by ring, abs_mul, abs_of_nonneg]
  · ring
  · have := add_nonneg hl.2 hl.1
    positivity

include hP in
/-- **C93** (direction): between segments of the same length the force is pressure times area times
the change of direction, against the centre of the bend. -/
theorem C93_pressure_force (s l : ℝ) (hs : lstr L (i - 1) = s ∧ lstr L i = s)
    (hl : L.l (i - 1) = l ∧ L.l i = l) :
    Pb L e i = (L.A * overpressure L e i * (l / s)) • (qs L (i - 1) - qs L i) := by
  have h1 := qs_unit L (i - 1) hb.long.1
  have h2 := qs_unit L i hb.long.2
  have hs0 : 0 < s := hs.2 ▸ lt_trans tol_pos hb.long.2
  have hn0 : 0 < norm (qs L (i - 1) ⨯₃ qs L i) := lt_trans tol_pos hb.normal
  have hc0 : 0 < norm (L.r (i + 1) - L.r (i - 1)) := lt_trans tol_pos hb.open_
  have hq := q_bent L i hb
  have hp := pvec_bent L i hb
  have hK := kurv_bent L i hb hP
  have hch := chord_eq L i hb
  have hn := norm_sq (qs L (i - 1) ⨯₃ qs L i)
  have hm := norm_sq (L.r (i + 1) - L.r (i - 1))
  rw [cross_norm_sq, h1, h2] at hn
  rw [hch] at hm hc0
  rw [hch] at hq
  rw [hs.1, hs.2] at hq hK hm hc0
  have hadj : adjacent L.N L.l i = l + l := by
    unfold adjacent
    rw [if_neg hb.inner.1, if_neg hb.inner.2.ne, hl.1, hl.2]
  unfold Pb
  rw [if_pos ⟨hP, hb.curved⟩]
  dsimp only
  rw [hadj, hq, hp, hK]
  have hcc := cross_cross_sum (qs L (i - 1)) (qs L i) s s
  rw [h1, h2] at hcc
  have hex : (s • qs L (i - 1) + s • qs L i) ⬝ᵥ (s • qs L (i - 1) + s • qs L i) =
      2 * s ^ 2 * (1 + qs L (i - 1) ⬝ᵥ qs L i) := by
    simp only [add_dotProduct, dotProduct_add, smul_dotProduct, dotProduct_smul, h1, h2,
      dotProduct_comm (qs L i) (qs L (i - 1)), smul_eq_mul]
    ring
  rw [hex] at hm
  set c := qs L (i - 1) ⬝ᵥ qs L i with hc
  set n := norm (qs L (i - 1) ⨯₃ qs L i) with hnd
  set k := norm (s • qs L (i - 1) + s • qs L i) with hkd
  set w := Real.sqrt (1 / 2 * (1 - c)) with hw
  have hcp : 0 < 1 + c := by
    have : 0 < k ^ 2 := by positivity
    rw [hm] at this
    by_contra hcon
    push Not at hcon
    nlinarith [sq_nonneg s]
  have hcm : 0 < 1 - c := by
    have : 0 < n ^ 2 := by positivity
    rw [hn] at this
    by_contra hcon
    push Not at hcon
    nlinarith
  have hw2 : w ^ 2 = 1 / 2 * (1 - c) := Real.sq_sqrt (by linarith)
  have hw0 : 0 ≤ w := Real.sqrt_nonneg _
  -- `k n = 2 s w (1 + c)`
  have hkn : k * n = 2 * s * w * (1 + c) := by
    have e1 : (k * n) ^ 2 = (2 * s * w * (1 + c)) ^ 2 := by
      rw [mul_pow, hm, hn, mul_pow, mul_pow, mul_pow, hw2]
      ring
    exact (pow_left_inj₀ (by positivity) (by positivity) (by norm_num)).1 e1
  rw [LinearMap.map_smul, LinearMap.map_smul₂, hcc]
  change (1 / 2 * L.A * (l + l) * overpressure L e i * (4 / (s + s) * w)) • _ = _
  rw [show (s * c + s * 1) • qs L (i - 1) - (s * 1 + s * c) • qs L i =
    (s * (1 + c)) • (qs L (i - 1) - qs L i) by module]
  rw [smul_smul, smul_smul, smul_smul]
  congr 1
  have hkn0 : 0 < k * n := by positivity
  have hw1 : w ≠ 0 := by
    intro h
    rw [hkn, h] at hkn0
    simp at hkn0
  have hk1 : k = 2 * s * w * (1 + c) / n := by rw [eq_div_iff hn0.ne', hkn]
  rw [hk1]
  field_simp
  ring

include hP in
/-- **C93** (direction, segments of any lengths): the force of the pressure lies in the plane of the bend, at right angles to the straight
line between the neighbouring nodes, and a pressure larger than that of the water points away from the centre of the bend: it pushes the
node away from its neighbours. -/
theorem C93_pressure_direction (hA : 0 < L.A) (hl : 0 < L.l (i - 1) ∧ 0 < L.l i) :
    (∃ x y : ℝ, Pb L e i = x • qs L (i - 1) + y • qs L i) ∧ Pb L e i ⬝ᵥ (L.r (i + 1) - L.r (i - 1)) = 0 ∧
      (0 < Pb L e i ⬝ᵥ (qs L (i - 1) - qs L i) ↔ 0 < overpressure L e i) ∧
      (0 < overpressure L e i → 0 < Pb L e i ⬝ᵥ (L.r i - L.r (i - 1)) ∧ 0 < Pb L e i ⬝ᵥ (L.r i - L.r (i + 1))) := by
  have h1 := qs_unit L (i - 1) hb.long.1
  have h2 := qs_unit L i hb.long.2
  have hs1 : 0 < lstr L (i - 1) := lt_trans tol_pos hb.long.1
  have hs2 : 0 < lstr L i := lt_trans tol_pos hb.long.2
  have hn0 : 0 < norm (qs L (i - 1) ⨯₃ qs L i) := lt_trans tol_pos hb.normal
  have hc0 : 0 < norm (L.r (i + 1) - L.r (i - 1)) := lt_trans tol_pos hb.open_
  have hn := norm_sq (qs L (i - 1) ⨯₃ qs L i)
  rw [cross_norm_sq, h1, h2] at hn
  have hc2 : 0 < 1 - (qs L (i - 1) ⬝ᵥ qs L i) ^ 2 := by
    have : 0 < norm (qs L (i - 1) ⨯₃ qs L i) ^ 2 := by positivity
    linarith
  have hK : 0 < Kurv L i := by
    have hcv := hb.curved
    have hk := kurv_bent L i hb hP
    have h0 : 0 ≤ Kurv L i := by rw [hk]; positivity
    refine lt_of_le_of_ne h0 fun h => hcv ?_
    rw [← h, equalRealNos_zero, abs_zero]
    exact tol_pos.le
  have hadj : adjacent L.N L.l i = L.l i + L.l (i - 1) := by
    unfold adjacent
    rw [if_neg hb.inner.1, if_neg hb.inner.2.ne]
  obtain ⟨m, hm, hPb⟩ : ∃ m : ℝ, 0 < m ∧ Pb L e i = (m * overpressure L e i) •
      ((lstr L (i - 1) * (qs L (i - 1) ⬝ᵥ qs L i) + lstr L i) • qs L (i - 1) -
        (lstr L (i - 1) + lstr L i * (qs L (i - 1) ⬝ᵥ qs L i)) • qs L i) := by
    refine ⟨1 / 2 * L.A * (L.l i + L.l (i - 1)) * Kurv L i * (1 / norm (L.r (i + 1) - L.r (i - 1))) *
      (1 / norm (qs L (i - 1) ⨯₃ qs L i)), ?_, ?_⟩
    · have := add_pos hl.2 hl.1
      positivity
    · have hcc := cross_cross_sum (qs L (i - 1)) (qs L i) (lstr L (i - 1)) (lstr L i)
      rw [h1, h2, mul_one, mul_one] at hcc
      unfold Pb
      rw [if_pos ⟨hP, hb.curved⟩]
      dsimp only
      rw [hadj, q_bent L i hb, pvec_bent L i hb, LinearMap.map_smul, LinearMap.map_smul₂, hcc, smul_smul]
      rw [smul_smul]
      congr 1
      change 1 / 2 * L.A * (L.l i + L.l (i - 1)) * overpressure L e i * Kurv L i * _ * _ = _
      ring
  have r1 : L.r i - L.r (i - 1) = lstr L (i - 1) • qs L (i - 1) := by
    obtain ⟨⟨g0, _⟩, ⟨g1, _⟩, _, _, _⟩ := hb
    obtain ⟨j, rfl⟩ := Nat.exists_eq_succ_of_ne_zero g0
    simp only [Nat.succ_eq_add_one, Nat.add_sub_cancel] at *
    rw [lstr_smul_qs L j g1]
  have r2 : L.r i - L.r (i + 1) = -(lstr L i • qs L i) := by
    rw [lstr_smul_qs L i hb.long.2]
    abel
  rw [chord_eq L i hb, r1, r2, hPb]
  simp only [smul_dotProduct, sub_dotProduct, dotProduct_add, dotProduct_sub, dotProduct_neg, dotProduct_smul, h1, h2,
    dotProduct_comm (qs L i) (qs L (i - 1)), smul_eq_mul]
  generalize lstr L (i - 1) = s at *
  generalize lstr L i = t at *
  generalize overpressure L e i = p at *
  generalize qs L (i - 1) ⬝ᵥ qs L i = c at *
  refine ⟨⟨m * p * (s * c + t), -(m * p * (s + t * c)), by module⟩, by ring, ?_, ?_⟩
  · have e1 : m * p * ((s * c + t) * 1 - (s + t * c) * c) - m * p * ((s * c + t) * c - (s + t * c) * 1) =
        (m * (s + t) * (1 - c ^ 2)) * p := by ring
    rw [e1]
    exact mul_pos_iff_of_pos_left (by positivity)
  · intro hp
    constructor
    · refine lt_of_lt_of_eq (show 0 < m * p * (s * t) * (1 - c ^ 2) by positivity) (by ring)
    · refine lt_of_lt_of_eq (show 0 < m * p * (s * t) * (1 - c ^ 2) by positivity) (by ring)
end

/-- **C93** (resultant): in a line with equal segments and pinned ends the same pressure everywhere
amounts to pressure times area at both ends, along the line; the forces of the pressure on the caps
that close it, which would balance them, are not there. -/
theorem C93_pressure_resultant (L : Line) (e : Env) (hN : 1 ≤ L.N) (hP : L.isPb = true)
    (hA : L.endTypeA = .PINNED) (hB : L.endTypeB = .PINNED) (s l p : ℝ)
    (hb : ∀ i, i ≠ 0 → i < L.N → Bent L i) (hs : ∀ i < L.N, lstr L i = s)
    (hl : ∀ i < L.N, L.l i = l) (hp : ∀ i, i ≠ 0 → i < L.N → overpressure L e i = p) :
    ∑ i ∈ range (L.N + 1), Pb L e i = (L.A * p * (l / s)) • (qs L 0 - qs L (L.N - 1)) := by
  have hz : EqualRealNos 0 0 := by rw [equalRealNos_zero, abs_zero]; exact tol_pos.le
  obtain ⟨n, hn⟩ : ∃ n, L.N = n + 1 := ⟨L.N - 1, by omega⟩
  have h0 : Pb L e 0 = 0 := by
    have : Kurv L 0 = 0 := by
      unfold Kurv
      rw [if_pos (Or.inr hP), if_pos rfl, if_neg (by rw [hA]; decide)]
    unfold Pb
    rw [if_neg (by rw [this]; exact fun h => h.2 hz)]
  have h1 : Pb L e (n + 1) = 0 := by
    have : Kurv L (n + 1) = 0 := by
      unfold Kurv
      rw [if_pos (Or.inr hP), if_neg (by omega), if_pos hn.symm, if_neg (by rw [hB]; decide)]
    unfold Pb
    rw [if_neg (by rw [this]; exact fun h => h.2 hz)]
  rw [hn, sum_range_succ, sum_range_succ', h0, h1, add_zero, add_zero, Nat.add_sub_cancel]
  rw [sum_congr rfl (g := fun i => (L.A * p * (l / s)) • (qs L i - qs L (i + 1)))]
  · rw [← smul_sum, sum_range_sub']
  · intro i hi
    have hi := mem_range.1 hi
    rw [C93_pressure_force L e (i + 1) (hb _ (by omega) (by omega)) hP s l
      ⟨hs _ (by omega), hs _ (by omega)⟩ ⟨hl _ (by omega), hl _ (by omega)⟩,
      hp _ (by omega) (by omega), Nat.add_sub_cancel]

/-- Moment of the bending of a node: stiffness times curvature, or read from the table -/
noncomputable def bendMoment (L : Line) (i : ℕ) : ℝ :=
  match L.bstiff with
  | none => L.EI * Kurv L i
  | some f => if Kurv L i = 0 then 0 else f (Kurv L i)

theorem kurv_EI (L : Line) (i : ℕ) :
    Kurv L i * getNonlinearEI L (Kurv L i) = bendMoment L i := by
  unfold getNonlinearEI bendMoment
  cases L.bstiff with
  | none => simp only; ring
  | some f =>
    simp only
    by_cases h : Kurv L i = 0
    · rw [if_pos h, h, zero_mul]
    · rw [if_neg h, mul_div_cancel₀ _ h]

/-- **C93** (tables of bending moments): in all that the bending of a line with pinned ends does, the
moment of each node is the one of the table at its curvature (or stiffness times curvature). -/
theorem C93_bending_table (L : Line) (hN : 1 ≤ L.N) (hEI : isEI L)
    (hA : L.endTypeA = .PINNED) (hB : L.endTypeB = .PINNED) :
    ∑ i ∈ range (L.N + 1), Bs L i ⬝ᵥ L.rd i =
      -∑ i ∈ range (L.N - 1), bendMoment L (i + 1) *
        (pvec L (i + 1) ⬝ᵥ (segOmega L (i + 1) - segOmega L i)) := by
  rw [C29_bending_power L hN hEI hA hB]
  simp only [kurv_EI]

/-- **C93** (clamped ends): the moments at the ends. -/
theorem C93_end_moment (L : Line) (hN : 1 ≤ L.N) (hEI : isEI L)
    (hl : ∀ i < L.N, 100 * eps / 2 < lstr L i) :
    ∑ i ∈ range (L.N + 1), L.r i ⨯₃ Bs L i =
      (if L.endTypeB = .CANTILEVERED then bendMoment L L.N • pvec L L.N else 0) -
      (if L.endTypeA = .CANTILEVERED then bendMoment L 0 • pvec L 0 else 0) := by
  rw [C29_bending_moment L hN hEI hl]
  unfold endMoment
  simp only [kurv_EI]

/-- Non-vacuity: the right angle of `elbowP`. -/
example : Bent elbowP 1 ∧ elbowP.isPb = true := by
  have h0 := elbowP_qs0
  have h1 := elbowP_qs1
  have a0 : qs elbowP 0 = ![1, 0, 0] := congrArg Prod.fst h0
  have a1 : qs elbowP 1 = ![0, 1, 0] := congrArg Prod.fst h1
  have b0 : lstr elbowP 0 = 2 := congrArg Prod.snd h0
  have b1 : lstr elbowP 1 = 1 := congrArg Prod.snd h1
  have ht := tol_lt_one
  refine ⟨⟨⟨by norm_num, by decide⟩, ⟨?_, ?_⟩, elbowP_K_ne, ?_, ?_⟩, rfl⟩
  · rw [Nat.sub_self, b0]; linarith
  · rw [b1]; linarith
  · rw [Nat.sub_self, a0, a1]
    have hc : (![1, 0, 0] : V) ⨯₃ ![0, 1, 0] = ![0, 0, 1] := by
      ext k; fin_cases k <;> simp [cross_apply]
    have hn : norm (![0, 0, 1] : V) = 1 :=
      norm_eq _ _ zero_le_one (by simp [dotProduct, Fin.sum_univ_three])
    rw [hc, hn]; exact ht
  · have : (1 : ℝ) ≤ norm (elbowP.r (1 + 1) - elbowP.r (1 - 1)) := by
      apply Real.le_sqrt_of_sq_le
      simp [elbowP, elbow, dotProduct, Fin.sum_univ_three]
    linarith

/-- A right angle between equal segments -/
noncomputable def corner : Line :=
  { elbowP with r := fun i => if i = 0 then ![0, 0, 0] else if i = 1 then ![2, 0, 0] else ![2, 2, 0] }

/-- Non-vacuity of `C93_pressure_force` and `C93_pressure_resultant` -/
example : (∀ i, i ≠ 0 → i < corner.N → Bent corner i) ∧ (∀ i < corner.N, lstr corner i = 2) ∧
    corner.isPb = true ∧ (∀ i < corner.N, corner.l i = 1) := by
  have h0 : unitvector (corner.r 0) (corner.r 1) = (![1, 0, 0], 2) := by
    apply unitvector_eq _ _ _ _ (by norm_num)
    · simp [dotProduct, Fin.sum_univ_three]
    · ext k; fin_cases k <;> simp [corner]
  have h1 : unitvector (corner.r 1) (corner.r 2) = (![0, 1, 0], 2) := by
    apply unitvector_eq _ _ _ _ (by norm_num)
    · simp [dotProduct, Fin.sum_univ_three]
    · ext k; fin_cases k <;> simp [corner]
  have a0 : qs corner 0 = ![1, 0, 0] := congrArg Prod.fst h0
  have a1 : qs corner 1 = ![0, 1, 0] := congrArg Prod.fst h1
  have b0 : lstr corner 0 = 2 := congrArg Prod.snd h0
  have b1 : lstr corner 1 = 2 := congrArg Prod.snd h1
  have ht := tol_lt_one
  have hN : corner.N = 2 := rfl
  refine ⟨?_, ?_, rfl, fun _ _ => rfl⟩
  · intro i hi hi2
    rw [hN] at hi2
    have : i = 1 := by omega
    subst this
    refine ⟨⟨by norm_num, by decide⟩, ⟨?_, ?_⟩, ?_, ?_, ?_⟩
    · rw [Nat.sub_self, b0]; linarith
    · rw [b1]; linarith
    · have he : eps ≤ 1 := by unfold eps; norm_num
      have hd : (![1, 0, 0] : V) ⬝ᵥ ![0, 1, 0] = 0 := by simp [dotProduct, Fin.sum_univ_three]
      have hK : Kurv corner 1 = Real.sqrt (1 / 2) := by
        unfold Kurv
        rw [if_pos (Or.inr (show corner.isPb = true from rfl)), if_neg (by norm_num), hN, if_neg (by norm_num), Nat.sub_self, b0, b1,
          a0, a1]
        unfold getCurvature
        rw [hd, if_neg (by linarith)]
        norm_num
      have h : (1 / 2 : ℝ) ≤ Real.sqrt (1 / 2) := Real.le_sqrt_of_sq_le (by norm_num)
      have ht : 100 * eps / 2 < 1 / 2 := by unfold eps; norm_num
      rw [equalRealNos_zero, hK, abs_of_nonneg (by positivity)]
      linarith
    · rw [Nat.sub_self, a0, a1]
      have hc : (![1, 0, 0] : V) ⨯₃ ![0, 1, 0] = ![0, 0, 1] := by
        ext k; fin_cases k <;> simp [cross_apply]
      have hn : norm (![0, 0, 1] : V) = 1 :=
        norm_eq _ _ zero_le_one (by simp [dotProduct, Fin.sum_univ_three])
      rw [hc, hn]; exact ht
    · have : (1 : ℝ) ≤ norm (corner.r (1 + 1) - corner.r (1 - 1)) := by
        apply Real.le_sqrt_of_sq_le
        simp [corner, dotProduct, Fin.sum_univ_three]
        try norm_num
      linarith
  · intro i hi
    rw [hN] at hi
    have : i = 0 ∨ i = 1 := by omega
    rcases this with rfl | rfl
    · exact b0
    · exact b1

end MD.Mooring
