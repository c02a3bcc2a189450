import Verif.Lemmas.Line
import Verif.Props.Interp

/-!
# Properties C29, C30, C31, C64: internal forces of a line

The line has `L.N` segments and nodes `0`, ..., `L.N`, ends included. `L.r`, `L.rd` are the node
positions and velocities, `L.l` the unstretched segment lengths.
-/

set_option linter.unusedSimpArgs false
set_option linter.unusedVariables false

namespace MD.Mooring

open Matrix MD.Mat Finset

/-- A line of two segments, bent at a right angle and stretched in its first segment, with
bending stiffness. -/
noncomputable def elbow : Line where
  N := 2
  d := 1
  A := 1
  rho := 1
  E := 1
  c := 1
  EI := 1
  Can := 1
  Cat := 1
  Cdn := 1
  Cdt := 1
  stiff := none
  bstiff := none
  damp := none
  dampNeg := false
  l := fun _ => 1
  V := fun _ => 1
  r := fun i => if i = 0 then ![0, 0, 0] else if i = 1 then ![2, 0, 0] else ![2, 1, 0]
  rd := fun i => if i = 0 then ![-1, 0, 0] else 0
  endTypeA := .PINNED
  endTypeB := .PINNED
  qA := 0
  qB := 0
  pin := fun _ => 0
  isPb := false

/-! ## C29 -/

theorem axial_pairwise (L : Line) (hN : 1 ≤ L.N) (f : ℕ → V)
    (hf : ∀ i ≤ L.N, axial L i = some (f i)) :
    ∃ td : ℕ → V, (∀ j < L.N, Td L j = some (td j)) ∧
      ∀ i ≤ L.N, f i = pairwise L.N (fun j => T L j + td j) i := by
  have h1 : ∀ j < L.N, ∃ t, Td L j = some t := by
    intro j hj
    have h := hf j hj.le
    unfold axial at h
    cases ht : Td L j with
    | some t => exact ⟨t, rfl⟩
    | none =>
      by_cases h0 : j = 0
      · subst h0
        rw [if_pos rfl, ht] at h
        exact absurd h (by simp)
      · rw [if_neg h0, if_neg (by omega), ht] at h
        exact absurd h (by simp)
  choose! td htd using h1
  refine ⟨td, htd, fun i hi => ?_⟩
  have h := hf i hi
  unfold axial at h
  unfold pairwise
  by_cases h0 : i = 0
  · subst h0
    rw [if_pos rfl, htd 0 (by omega)] at h
    rw [if_pos rfl]
    simp only [Option.bind_eq_bind, Option.bind_some, Option.pure_def, Option.some.injEq] at h
    exact h.symm
  · rw [if_neg h0] at h ⊢
    by_cases hN' : i = L.N
    · subst hN'
      rw [if_pos rfl, htd _ (by omega)] at h
      rw [if_pos rfl]
      simp only [Option.bind_eq_bind, Option.bind_some, Option.pure_def, Option.some.injEq] at h
      rw [← h]
      module
    · rw [if_neg hN', htd _ (by omega), htd _ (by omega)] at h
      rw [if_neg hN']
      simp only [Option.bind_eq_bind, Option.bind_some, Option.pure_def, Option.some.injEq] at h
      rw [← h]
      module

/-- C29: the tension and damping forces on the nodes add up to zero. -/
theorem C29_tension_damping_cancel (L : Line) (hN : 1 ≤ L.N) (f : ℕ → V)
    (hf : ∀ i ≤ L.N, axial L i = some (f i)) : ∑ i ∈ range (L.N + 1), f i = 0 := by
  obtain ⟨td, -, h⟩ := axial_pairwise L hN f hf
  rw [sum_congr rfl (fun i hi => h i (by have := mem_range.1 hi; omega))]
  have := sum_pairwise L.N hN (fun j => T L j + td j) (fun _ => LinearMap.id)
  simpa using this

/-- The cross product by a fixed vector, as a linear map -/
noncomputable def crossL (a : V) : V →ₗ[ℝ] V := crossProduct a

theorem qs_parallel (L : Line) (i : ℕ) : (L.r (i + 1) - L.r i) ⨯₃ qs L i = 0 := by
  obtain ⟨k, -, hk⟩ := unitvector_parallel (L.r i) (L.r (i + 1))
  rw [qs, hk, map_smul, cross_self, smul_zero]

/-- C29, moments: the tension and damping forces have no resultant moment. -/
theorem C29_tension_damping_moment (L : Line) (hN : 1 ≤ L.N) (f : ℕ → V)
    (hf : ∀ i ≤ L.N, axial L i = some (f i)) :
    ∑ i ∈ range (L.N + 1), L.r i ⨯₃ f i = 0 := by
  obtain ⟨td, htd, h⟩ := axial_pairwise L hN f hf
  rw [sum_congr rfl (fun i hi => by rw [h i (by have := mem_range.1 hi; omega)])]
  have := sum_pairwise L.N hN (fun j => T L j + td j) (fun i => crossL (L.r i))
  simp only [crossL] at this
  rw [this]
  apply sum_eq_zero
  intro i hi
  have hi' := mem_range.1 hi
  have hX : ∃ k : ℝ, T L i + td i = k • qs L i := by
    have h1 : ∃ k : ℝ, T L i = k • qs L i := by
      unfold T
      dsimp only
      split
      · exact ⟨_, rfl⟩
      · exact ⟨0, by rw [zero_smul]⟩
    have h2 : ∃ k : ℝ, td i = k • qs L i := by
      have := htd i hi'
      unfold Td at this
      cases hc : getNonlinearC L (ldstr L i) (L.l i) with
      | none => rw [hc] at this; exact absurd this (by simp)
      | some c =>
        rw [hc] at this
        simp only [Option.bind_eq_bind, Option.bind_some, Option.pure_def,
          Option.some.injEq] at this
        exact ⟨_, this.symm⟩
    obtain ⟨a, ha⟩ := h1
    obtain ⟨b, hb⟩ := h2
    exact ⟨a + b, by rw [ha, hb]; module⟩
  obtain ⟨k, hk⟩ := hX
  have := qs_parallel L i
  rw [map_sub, LinearMap.sub_apply] at this
  rw [hk, map_smul, map_smul, ← smul_sub, ← neg_sub, this, neg_zero, smul_zero]

/-- C29: the bending forces on the nodes add up to zero. -/
theorem C29_bending_cancel (L : Line) (hN : 1 ≤ L.N) :
    ∑ i ∈ range (L.N + 1), Bs L i = 0 := by
  by_cases hEI : isEI L
  · have := Bs_sum L hN hEI (fun _ => LinearMap.id)
    simp only [LinearMap.id_apply] at this
    rw [this]
    apply sum_eq_zero
    intro i _
    unfold bendTerm
    dsimp only
    simp
  · unfold Bs
    rw [if_neg hEI]
    simp

theorem pvec_orth_left (L : Line) (i : ℕ) (h0 : i ≠ 0) : qs L (i - 1) ⬝ᵥ pvec L i = 0 := by
  unfold pvec
  dsimp only
  split
  · simp
  · rw [if_neg h0]
    by_cases hN : i = L.N
    · rw [if_pos hN]
      split <;> simp [dotProduct_smul, dot_self_cross]
    · rw [if_neg hN]
      split <;> simp [dotProduct_smul, dot_self_cross]

theorem pvec_orth_right (L : Line) (i : ℕ) (hN : i ≠ L.N) : qs L i ⬝ᵥ pvec L i = 0 := by
  unfold pvec
  dsimp only
  split
  · simp
  · by_cases h0 : i = 0
    · subst h0
      rw [if_pos rfl]
      split <;> simp [dotProduct_smul, dot_cross_self]
    · rw [if_neg h0, if_neg hN]
      split <;> simp [dotProduct_smul, dot_cross_self]

theorem cross_cross_unit (a b : V) (ha : a ⬝ᵥ a = 1) (hab : a ⬝ᵥ b = 0) : a ⨯₃ (a ⨯₃ b) = -b := by
  simp only [dotProduct, Fin.sum_univ_three] at ha hab
  ext k
  fin_cases k <;>
  · simp [cross_apply]
    grobner

/-- The lever arm of a segment: the moment of a couple of forces across a segment. -/
theorem couple (L : Line) (i : ℕ) (h : 100 * eps / 2 < lstr L i) (p : V)
    (hp : qs L i ⬝ᵥ p = 0) (k : ℝ) :
    (k / lstr L i) • (crossL (L.r (i + 1)) - crossL (L.r i)) (qs L i ⨯₃ p) = -(k • p) := by
  have hl : lstr L i ≠ 0 := (tol_pos.trans h).ne'
  have h1 : (crossL (L.r (i + 1)) - crossL (L.r i)) (qs L i ⨯₃ p) = -(lstr L i • p) := by
    have : (crossL (L.r (i + 1)) - crossL (L.r i)) = crossL (lstr L i • qs L i) := by
      rw [lstr_smul_qs L i h]; simp [crossL]
    rw [this]
    simp only [crossL, map_smul, LinearMap.smul_apply]
    rw [cross_cross_unit _ _ (qs_unit L i h) hp, smul_neg]
  rw [h1, smul_neg, smul_smul]
  congr 2
  field_simp

/-- Bending moment (curvature times stiffness) at a clamped end, with its direction -/
noncomputable def endMoment (L : Line) (i : ℕ) : V :=
  (Kurv L i * getNonlinearEI L (Kurv L i)) • pvec L i

/-- C29, moments: the moments of the bending forces add up to those of the clamped ends. With
both ends pinned the bending forces have no resultant moment. -/
theorem C29_bending_moment (L : Line) (hN : 1 ≤ L.N) (hEI : isEI L)
    (hl : ∀ i < L.N, 100 * eps / 2 < lstr L i) :
    ∑ i ∈ range (L.N + 1), L.r i ⨯₃ Bs L i =
      (if L.endTypeB = .CANTILEVERED then endMoment L L.N else 0) -
      (if L.endTypeA = .CANTILEVERED then endMoment L 0 else 0) := by
  have hs := Bs_sum L hN hEI (fun i => crossL (L.r i))
  have e : ∀ i, crossL (L.r i) (Bs L i) = L.r i ⨯₃ Bs L i := fun _ => rfl
  simp only [e] at hs
  rw [hs]
  obtain ⟨n, hn⟩ : ∃ n, L.N = n + 1 := ⟨L.N - 1, by omega⟩
  rw [hn, sum_range_succ, sum_range_succ']
  have hmid : ∑ k ∈ range n, bendTerm L (fun i => crossL (L.r i)) (k + 1) = 0 := by
    apply sum_eq_zero
    intro k hk
    have hk := mem_range.1 hk
    unfold bendTerm
    dsimp only
    rw [if_neg (Nat.succ_ne_zero k), if_neg (by omega), Nat.add_sub_cancel,
      couple L (k + 1) (hl _ (by omega)) _ (pvec_orth_right L _ (by omega))]
    have h1 := couple L k (hl _ (by omega)) _ (pvec_orth_left L (k + 1) (by omega))
      (Kurv L (k + 1) * getNonlinearEI L (Kurv L (k + 1)))
    rw [← neg_sub (crossL (L.r (k + 1))), LinearMap.neg_apply, smul_neg, h1]
    simp
  have h0 : bendTerm L (fun i => crossL (L.r i)) 0 =
      -(if L.endTypeA = .CANTILEVERED then endMoment L 0 else 0) := by
    unfold bendTerm
    dsimp only
    rw [if_pos rfl]
    split
    · have := couple L 0 (hl 0 (by omega)) _ (pvec_orth_right L 0 (by omega))
        (Kurv L 0 * getNonlinearEI L (Kurv L 0))
      rw [zero_add] at this
      rw [this, endMoment]
    · rw [neg_zero]
  have hN' : bendTerm L (fun i => crossL (L.r i)) (n + 1) =
      if L.endTypeB = .CANTILEVERED then endMoment L (n + 1) else 0 := by
    unfold bendTerm
    dsimp only
    rw [if_neg (Nat.succ_ne_zero n), if_pos hn.symm]
    split
    · have h1 := couple L n (hl _ (by omega)) _ (pvec_orth_left L (n + 1) (by omega))
        (Kurv L (n + 1) * getNonlinearEI L (Kurv L (n + 1)))
      rw [Nat.add_sub_cancel, ← neg_sub (crossL (L.r (n + 1))), LinearMap.neg_apply, smul_neg, h1,
        endMoment]
      simp
    · rfl
  rw [hmid, h0, hN', zero_add, neg_add_eq_sub]

/-- The dot product by a fixed vector, as a linear map -/
def dotL (a : V) : V →ₗ[ℝ] ℝ where
  toFun b := b ⬝ᵥ a
  map_add' b c := add_dotProduct b c a
  map_smul' k b := smul_dotProduct k b a

/-- Angular velocity of a segment (that of its direction) -/
noncomputable def segOmega (L : Line) (i : ℕ) : V :=
  (1 / lstr L i) • (qs L i ⨯₃ (L.rd (i + 1) - L.rd i))

theorem couple_power (L : Line) (i : ℕ) (p : V) (k : ℝ) :
    (k / lstr L i) • (dotL (L.rd (i + 1)) - dotL (L.rd i)) (qs L i ⨯₃ p) =
      -(k * (p ⬝ᵥ segOmega L i)) := by
  simp only [dotL, segOmega, LinearMap.sub_apply, LinearMap.coe_mk, AddHom.coe_mk,
    dotProduct, Fin.sum_univ_three, cross_apply, smul_eq_mul, Pi.smul_apply, Pi.sub_apply,
    Matrix.cons_val_zero, Matrix.cons_val_one, Matrix.cons_val]
  ring

/-- C29, direction of the bending forces: with pinned ends their power is that of the moments
(curvature times stiffness, about the binormal of the bend) against the relative rotation of
the adjacent segments. The forces take power where the bend increases. -/
theorem C29_bending_power (L : Line) (hN : 1 ≤ L.N) (hEI : isEI L)
    (hA : L.endTypeA = .PINNED) (hB : L.endTypeB = .PINNED) :
    ∑ i ∈ range (L.N + 1), Bs L i ⬝ᵥ L.rd i =
      -∑ i ∈ range (L.N - 1), Kurv L (i + 1) * getNonlinearEI L (Kurv L (i + 1)) *
        (pvec L (i + 1) ⬝ᵥ (segOmega L (i + 1) - segOmega L i)) := by
  have hs := Bs_sum L hN hEI (fun i => dotL (L.rd i))
  have e : ∀ i, dotL (L.rd i) (Bs L i) = Bs L i ⬝ᵥ L.rd i := fun _ => rfl
  simp only [e] at hs
  rw [hs]
  obtain ⟨n, hn⟩ : ∃ n, L.N = n + 1 := ⟨L.N - 1, by omega⟩
  rw [hn, sum_range_succ, sum_range_succ', Nat.add_sub_cancel]
  have h0 : bendTerm L (fun i => dotL (L.rd i)) 0 = 0 := by
    unfold bendTerm
    dsimp only
    rw [if_pos rfl, if_neg (by rw [hA]; decide)]
  have h1 : bendTerm L (fun i => dotL (L.rd i)) (n + 1) = 0 := by
    unfold bendTerm
    dsimp only
    rw [if_neg (Nat.succ_ne_zero n), if_pos hn.symm, if_neg (by rw [hB]; decide)]
  rw [h0, h1, add_zero, add_zero, ← sum_neg_distrib]
  apply sum_congr rfl
  intro k hk
  have hk := mem_range.1 hk
  unfold bendTerm
  dsimp only
  rw [if_neg (Nat.succ_ne_zero k), if_neg (by omega), Nat.add_sub_cancel, couple_power,
    ← neg_sub (dotL (L.rd (k + 1))), LinearMap.neg_apply, smul_neg, couple_power, dotProduct_sub]
  ring

/-- C29: the net forces on the nodes add up to the weight (with buoyancy), drag, inertia and
seabed forces alone, for a line without internal pressure. -/
theorem C29_net_force (L : Line) (e : Env) (hN : 1 ≤ L.N) (hP : L.isPb = false) (f : ℕ → V)
    (hf : ∀ i ≤ L.N, Fnet L e i = some (f i)) :
    ∑ i ∈ range (L.N + 1), f i =
      ∑ i ∈ range (L.N + 1), (W L e i + (Dp L e i + Dq L e i) + (Ap L e i + Aq L e i) + B L e i) := by
  have h1 : ∀ i ≤ L.N, ∃ a, axial L i = some a ∧
      f i = a + (W L e i + (Dp L e i + Dq L e i) + (Ap L e i + Aq L e i) + B L e i) + Bs L i := by
    intro i hi
    have h := hf i hi
    unfold Fnet at h
    cases ha : axial L i with
    | none => rw [ha] at h; exact absurd h (by simp)
    | some a =>
      rw [ha] at h
      simp only [Option.bind_eq_bind, Option.bind_some, Option.pure_def, Option.some.injEq] at h
      have hPb : Pb L e i = 0 := by
        unfold Pb
        rw [if_neg (by rw [hP]; simp)]
      exact ⟨a, rfl, by rw [← h, hPb]; module⟩
  choose! a ha using h1
  rw [sum_congr rfl (fun i hi => (ha i (by have := mem_range.1 hi; omega)).2), sum_add_distrib,
    sum_add_distrib, C29_bending_cancel L hN,
    C29_tension_damping_cancel L hN a (fun i hi => (ha i hi).1)]
  simp

/-- C29: the node masses add up to the mass of the line. -/
theorem C29_mass (L : Line) (hN : 1 ≤ L.N) :
    ∑ i ∈ range (L.N + 1), m L i = L.rho * (Real.pi / 4 * L.d ^ 2) * ∑ i ∈ range L.N, L.l i := by
  unfold m
  rw [← mul_sum, ← mul_sum, sum_adjacent _ hN]
  ring

/-- C29: the weight forces add up to the weight of the line less that of the displaced water. -/
theorem C29_weight (L : Line) (e : Env) (hN : 1 ≤ L.N) :
    ∑ i ∈ range (L.N + 1), W L e i =
      ![0, 0, -(e.g * (L.rho * ∑ i ∈ range L.N, L.A * L.l i -
        e.rho_w * ∑ i ∈ range L.N, F L e i * (L.A * L.l i)))] := by
  ext k
  rw [Finset.sum_apply]
  fin_cases k
  · simp [W]
  · simp [W]
  · simp only [W, Fin.reduceFinMk, Matrix.cons_val]
    rw [← sum_mul, ← mul_sum, sum_adjacent _ hN, mul_sum, mul_sum, mul_sum, mul_sum, ← sum_sub_distrib,
      mul_sum, sum_mul, ← sum_neg_distrib]
    apply sum_congr rfl
    intro i _
    ring

/-- The net forces with internal pressure -/
theorem C29_net_force_pressure (L : Line) (e : Env) (hN : 1 ≤ L.N) (f : ℕ → V)
    (hf : ∀ i ≤ L.N, Fnet L e i = some (f i)) :
    ∑ i ∈ range (L.N + 1), f i = ∑ i ∈ range (L.N + 1), Pb L e i +
      ∑ i ∈ range (L.N + 1), (W L e i + (Dp L e i + Dq L e i) + (Ap L e i + Aq L e i) + B L e i) := by
  have h1 : ∀ i ≤ L.N, ∃ a, axial L i = some a ∧
      f i = a + (W L e i + (Dp L e i + Dq L e i) + (Ap L e i + Aq L e i) + B L e i) + Bs L i +
        Pb L e i := by
    intro i hi
    have h := hf i hi
    unfold Fnet at h
    cases ha : axial L i with
    | none => rw [ha] at h; exact absurd h (by simp)
    | some a =>
      rw [ha] at h
      simp only [Option.bind_eq_bind, Option.bind_some, Option.pure_def, Option.some.injEq] at h
      exact ⟨a, rfl, by rw [← h]; module⟩
  choose! a ha using h1
  rw [sum_congr rfl (fun i hi => (ha i (by have := mem_range.1 hi; omega)).2), sum_add_distrib,
    sum_add_distrib, sum_add_distrib, C29_bending_cancel L hN,
    C29_tension_damping_cancel L hN a (fun i hi => (ha i hi).1)]
  simp [add_comm]

theorem unitvector_eq (a b u : V) (x : ℝ) (hx : 1 / 2 ≤ x) (hu : u ⬝ᵥ u = 1) (h : b - a = x • u) :
    unitvector a b = (u, x) := by
  have hn : norm (b - a) = x := by
    apply norm_eq _ _ (by linarith)
    rw [h, dotProduct_smul, smul_dotProduct, hu]
    simp
  have ht : 100 * eps / 2 < 1 / 2 := by unfold eps; norm_num
  unfold unitvector
  dsimp only
  rw [hn, if_neg (by rw [equalRealNos_zero, abs_of_nonneg (by linarith)]; linarith), h, smul_smul]
  have : 1 / x * x = 1 := by field_simp
  rw [this, one_smul]

/-- No water, no gravity, no seabed contact -/
noncomputable def vacuum : Env where
  rho_w := 0
  g := 0
  kb := 0
  cb := 0
  frictionCoefficient := 0
  fricDamp := 0
  statDynFricScale := 1
  waterDepth := fun _ _ => -100
  zeta := fun _ => 0
  U := fun _ => 0
  Ud := fun _ => 0
  pdyn := fun _ => 0

/-- The bent line of the examples with internal pressure -/
noncomputable def elbowP : Line := { elbow with isPb := true, pin := fun _ => 1 }

theorem elbow_defined (L : Line) (hL : L.damp = none) (e : Env) :
    ∃ f : ℕ → V, ∀ i ≤ L.N, Fnet L e i = some (f i) := by
  have h : ∀ i, ∃ a, axial L i = some a := by
    intro i
    unfold axial
    have : ∀ j, ∃ t, Td L j = some t := fun j => ⟨_, by unfold Td getNonlinearC; rw [hL]; rfl⟩
    obtain ⟨t, ht⟩ := this i
    obtain ⟨t', ht'⟩ := this (i - 1)
    rw [ht, ht']
    split
    · exact ⟨_, rfl⟩
    · split <;> exact ⟨_, rfl⟩
  choose a ha using h
  refine ⟨fun i => a i + (W L e i + (Dp L e i + Dq L e i + Ap L e i + Aq L e i) + B L e i +
    Bs L i + Pb L e i), fun i _ => ?_⟩
  unfold Fnet
  rw [ha]
  rfl

/-- The hypotheses of `C29_net_force` and `C29_tension_damping_cancel` hold for the bent line. -/
example : 1 ≤ elbow.N ∧ elbow.isPb = false ∧ isEI elbow ∧
    ∃ f : ℕ → V, ∀ i ≤ elbow.N, Fnet elbow vacuum i = some (f i) :=
  ⟨by decide, rfl, Or.inl one_pos, elbow_defined _ rfl _⟩

theorem elbowP_isPb : elbowP.isPb = true := rfl

open Classical in
theorem pvec_inner (L : Line) (i : ℕ) (h0 : i ≠ 0) (hN : i ≠ L.N) (hK : ¬ EqualRealNos (Kurv L i) 0) :
    pvec L i = if EqualRealNos (norm (qs L (i - 1) ⨯₃ qs L i)) 0 then qs L (i - 1) ⨯₃ qs L i
      else (1 / norm (qs L (i - 1) ⨯₃ qs L i)) • (qs L (i - 1) ⨯₃ qs L i) := by
  unfold pvec
  dsimp only
  rw [if_neg hK, if_neg h0, if_neg hN]

theorem elbowP_qs0 : unitvector (elbowP.r 0) (elbowP.r 1) = (![1, 0, 0], 2) := by
  apply unitvector_eq _ _ _ _ (by norm_num)
  · simp [dotProduct, Fin.sum_univ_three]
  · ext k; fin_cases k <;> simp [elbowP, elbow]

theorem elbowP_qs1 : unitvector (elbowP.r 1) (elbowP.r 2) = (![0, 1, 0], 1) := by
  apply unitvector_eq _ _ _ _ (by norm_num)
  · simp [dotProduct, Fin.sum_univ_three]
  · ext k; fin_cases k <;> simp [elbowP, elbow]

/-- The hypotheses of `C29_bending_moment` and `C29_bending_power` hold for the bent line. -/
example : ∀ i < elbow.N, 100 * eps / 2 < lstr elbow i := by
  intro i hi
  have ht : 100 * eps / 2 < 1 / 2 := by unfold eps; norm_num
  have : i = 0 ∨ i = 1 := by change i < 2 at hi; omega
  rcases this with rfl | rfl
  · have : lstr elbow 0 = 2 := congrArg Prod.snd elbowP_qs0
    rw [this]; linarith
  · have : lstr elbow 1 = 1 := congrArg Prod.snd elbowP_qs1
    rw [this]; linarith

theorem elbowP_K : Kurv elbowP 1 = 4 / 3 * Real.sqrt (1 / 2) := by
  have h0 : lstr elbowP 0 = 2 := congrArg Prod.snd elbowP_qs0
  have h1 : lstr elbowP 1 = 1 := congrArg Prod.snd elbowP_qs1
  have h2 : qs elbowP 0 = ![1, 0, 0] := congrArg Prod.fst elbowP_qs0
  have h3 : qs elbowP 1 = ![0, 1, 0] := congrArg Prod.fst elbowP_qs1
  have hN : elbowP.N = 2 := rfl
  have he : eps ≤ 1 := by unfold eps; norm_num
  unfold Kurv
  rw [if_pos (Or.inr elbowP_isPb), if_neg (by norm_num), hN, if_neg (by norm_num), Nat.sub_self, h0, h1, h2, h3]
  have hd : (![1, 0, 0] : V) ⬝ᵥ ![0, 1, 0] = 0 := by simp [dotProduct, Fin.sum_univ_three]
  unfold getCurvature
  rw [hd, if_neg (by linarith)]
  norm_num

theorem elbowP_K_ne : ¬ EqualRealNos (Kurv elbowP 1) 0 := by
  have h : (1 / 2 : ℝ) ≤ Real.sqrt (1 / 2) := Real.le_sqrt_of_sq_le (by norm_num)
  have ht : 100 * eps / 2 < 1 / 2 := by unfold eps; norm_num
  rw [equalRealNos_zero, elbowP_K, abs_of_nonneg (by positivity)]
  linarith

theorem elbowP_Pb : Pb elbowP vacuum 0 = 0 ∧ Pb elbowP vacuum 2 = 0 ∧ 0 < Pb elbowP vacuum 1 0 := by
  have hz : EqualRealNos 0 0 := by rw [equalRealNos_zero, abs_zero]; exact tol_pos.le
  have hN : elbowP.N = 2 := rfl
  refine ⟨?_, ?_, ?_⟩
  · have : Kurv elbowP 0 = 0 := by
      unfold Kurv
      rw [if_pos (Or.inr elbowP_isPb), if_pos rfl, if_neg (by intro h; cases h)]
    unfold Pb
    rw [if_neg (by rw [this]; exact fun h => h.2 hz)]
  · have : Kurv elbowP 2 = 0 := by
      unfold Kurv
      rw [if_pos (Or.inr elbowP_isPb), if_neg (by norm_num), hN, if_pos rfl, if_neg (by intro h; cases h)]
    unfold Pb
    rw [if_neg (by rw [this]; exact fun h => h.2 hz)]
  · have h2 : qs elbowP 0 = ![1, 0, 0] := congrArg Prod.fst elbowP_qs0
    have h3 : qs elbowP 1 = ![0, 1, 0] := congrArg Prod.fst elbowP_qs1
    have hp : pvec elbowP 1 = ![0, 0, 1] := by
      have hc : (![1, 0, 0] : V) ⨯₃ ![0, 1, 0] = ![0, 0, 1] := by
        ext k; fin_cases k <;> simp [cross_apply]
      have hn : norm (![0, 0, 1] : V) = 1 :=
        norm_eq _ _ zero_le_one (by simp [dotProduct, Fin.sum_univ_three])
      rw [pvec_inner elbowP 1 (by norm_num) (by rw [hN]; norm_num) elbowP_K_ne, Nat.sub_self, h2, h3,
        hc, hn, if_neg (by rw [equalRealNos_zero, abs_one]; exact not_le.2 tol_lt_one)]
      norm_num
    have hq : ∃ k : ℝ, 0 < k ∧ q elbowP 1 = k • ![2, 1, 0] := by
      obtain ⟨k, hk, h⟩ := unitvector_parallel (elbowP.r 0) (elbowP.r 2)
      refine ⟨k, hk, ?_⟩
      unfold q
      rw [if_neg (by norm_num), hN, if_neg (by norm_num), h]
      congr 1
      ext j; fin_cases j <;> simp [elbowP, elbow]
    obtain ⟨k, hk, hq⟩ := hq
    have hK : 0 < Kurv elbowP 1 := by
      rw [elbowP_K]
      have : 0 < Real.sqrt (1 / 2) := Real.sqrt_pos.2 (by norm_num)
      positivity
    unfold Pb
    rw [if_pos ⟨rfl, elbowP_K_ne⟩, hp, hq]
    generalize Kurv elbowP 1 = κ at hK
    simp [cross_apply, elbowP, elbow, vacuum, adjacent]
    positivity

/-- C29 fails with internal pressure: a bent line in vacuum, without weight, closed on itself or
not, is pushed by its own internal pressure. -/
theorem C29_internal_pressure_false : ∃ (L : Line) (e : Env) (f : ℕ → V), 1 ≤ L.N ∧
    (∀ i ≤ L.N, Fnet L e i = some (f i)) ∧
    ∑ i ∈ range (L.N + 1), f i ≠
      ∑ i ∈ range (L.N + 1), (W L e i + (Dp L e i + Dq L e i) + (Ap L e i + Aq L e i) + B L e i) := by
  obtain ⟨f, hf⟩ := elbow_defined elbowP rfl vacuum
  refine ⟨elbowP, vacuum, f, by decide, hf, ?_⟩
  rw [C29_net_force_pressure _ _ (by decide) f hf]
  intro h
  have h' := add_eq_right.1 h
  have hN : elbowP.N = 2 := rfl
  obtain ⟨h0, h2, h1⟩ := elbowP_Pb
  rw [hN, sum_range_succ, sum_range_succ, sum_range_succ, sum_range_zero, h0, h2] at h'
  have := congrFun h' 0
  simp at this
  exact absurd this h1.ne'

/-! ## C64: moments at clamped ends -/

/-- C64 for pinned ends: no moment is given to the attached objects, and none is missing (the
bending forces have no resultant moment). -/
theorem C64_pinned_partial (L : Line) (e : Env) (hN : 1 ≤ L.N) (hEI : isEI L)
    (hA : L.endTypeA = .PINNED) (hB : L.endTypeB = .PINNED)
    (hl : ∀ i < L.N, 100 * eps / 2 < lstr L i) (sA sB : V × V × M3 ℝ)
    (h1 : getEndStuff L e .BOTTOM = some sA) (h2 : getEndStuff L e .TOP = some sB) :
    sA.2.1 + sB.2.1 + ∑ i ∈ range (L.N + 1), L.r i ⨯₃ Bs L i = 0 := by
  rw [C29_bending_moment L hN hEI hl, hA, hB]
  unfold getEndStuff at h1 h2
  dsimp only at h1 h2
  have e1 : sA.2.1 = 0 := by
    cases h : Fnet L e 0 with
    | none => rw [h] at h1; exact absurd h1 (by simp)
    | some x => rw [h] at h1; cases h1; rfl
  have e2 : sB.2.1 = 0 := by
    cases h : Fnet L e L.N with
    | none => rw [h] at h2; exact absurd h2 (by simp)
    | some x => rw [h] at h2; cases h2; rfl
  rw [e1, e2]
  simp

/-- A straight segment clamped at end A to an object at a right angle -/
noncomputable def clamped : Line :=
  { elbow with
    N := 1
    r := fun i => if i = 0 then ![0, 0, 0] else ![1, 0, 0]
    endTypeA := .CANTILEVERED
    qA := ![0, 1, 0] }

theorem clamped_endA : clamped.endTypeA = .CANTILEVERED := rfl

theorem clamped_qs0 : unitvector (clamped.r 0) (clamped.r 1) = (![1, 0, 0], 1) := by
  apply unitvector_eq _ _ _ _ (by norm_num)
  · simp [dotProduct, Fin.sum_univ_three]
  · ext k; fin_cases k <;> simp [clamped, elbow]

/-- C64 fails for clamped ends: the bending forces of the line have a resultant moment, whose
reaction is not passed to the objects at the ends of the line. -/
theorem C64_clamped_false : ∃ (L : Line) (e : Env) (sA sB : V × V × M3 ℝ), 1 ≤ L.N ∧ isEI L ∧
    (∀ i < L.N, 100 * eps / 2 < lstr L i) ∧
    getEndStuff L e .BOTTOM = some sA ∧ getEndStuff L e .TOP = some sB ∧
    sA.2.1 + sB.2.1 + ∑ i ∈ range (L.N + 1), L.r i ⨯₃ Bs L i ≠ 0 := by
  obtain ⟨f, hf⟩ := elbow_defined clamped rfl vacuum
  have hN : clamped.N = 1 := rfl
  have h0 : lstr clamped 0 = 1 := congrArg Prod.snd clamped_qs0
  have h2 : qs clamped 0 = ![1, 0, 0] := congrArg Prod.fst clamped_qs0
  have hEI : isEI clamped := Or.inl one_pos
  have hl : ∀ i < clamped.N, 100 * eps / 2 < lstr clamped i := by
    intro i hi
    obtain rfl : i = 0 := by omega
    rw [h0]; exact tol_lt_one
  refine ⟨clamped, vacuum, (f 0, 0, M clamped vacuum 0), (f 1, 0, M clamped vacuum 1), by decide, hEI,
    hl, ?_, ?_, ?_⟩
  · unfold getEndStuff; dsimp only; rw [hf 0 (by omega)]; rfl
  · unfold getEndStuff; dsimp only; rw [hN, hf 1 (by omega)]; rfl
  · rw [C29_bending_moment _ (by decide) hEI hl]
    have hq : q clamped 0 = ![0, 1, 0] := by
      unfold q
      rw [if_pos rfl, if_neg (by
        rintro (h | h)
        · cases h
        · exact h hEI)]
      rfl
    have he : eps ≤ 1 := by unfold eps; norm_num
    have hK : Kurv clamped 0 = 4 * Real.sqrt (1 / 2) := by
      unfold Kurv
      rw [if_pos (Or.inl hEI), if_pos rfl,
        if_pos clamped_endA, h0, h2, hq]
      have hd : (![0, 1, 0] : V) ⬝ᵥ ![1, 0, 0] = 0 := by simp [dotProduct, Fin.sum_univ_three]
      unfold getCurvature
      rw [hd, if_neg (by linarith)]
      norm_num
    have hK2 : (2 : ℝ) ≤ Kurv clamped 0 := by
      have h : (1 / 2 : ℝ) ≤ Real.sqrt (1 / 2) := Real.le_sqrt_of_sq_le (by norm_num)
      rw [hK]; linarith
    have hp : pvec clamped 0 = ![0, 0, -1] := by
      have hc : (![0, 1, 0] : V) ⨯₃ ![1, 0, 0] = ![0, 0, -1] := by
        ext k; fin_cases k <;> simp [cross_apply]
      have hn : norm (![0, 0, -1] : V) = 1 :=
        norm_eq _ _ zero_le_one (by simp [dotProduct, Fin.sum_univ_three])
      unfold pvec
      dsimp only
      rw [if_neg (by
        rw [equalRealNos_zero, abs_of_nonneg (by linarith)]
        have := tol_lt_one; linarith), if_pos rfl, hq, h2, hc,
        hn, if_neg (by rw [equalRealNos_zero, abs_one]; exact not_le.2 tol_lt_one)]
      norm_num
    intro h
    have := congrFun h 2
    rw [if_neg (by intro h; cases h), if_pos clamped_endA,
      endMoment, hp] at this
    simp [getNonlinearEI, clamped, elbow] at this
    have h3 : Kurv clamped 0 = 0 := this
    linarith

end MD.Mooring
