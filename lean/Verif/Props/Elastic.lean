import Verif.Props.Energy
import Mathlib.Analysis.Real.Pi.Bounds
import Mathlib.Analysis.SpecialFunctions.Trigonometric.Deriv

/-!
# C103: what the elastic forces of a line give back
-/

set_option linter.unusedSimpArgs false
set_option linter.unusedVariables false

namespace MD.Elastic

open Matrix Finset MD.Mat MD.Mooring MD.Energy

/-! ## Tension -/

/-- Power of forces on the nodes. -/
def powerOf (N : ℕ) (f v : ℕ → V) : ℝ := ∑ i ∈ range (N + 1), f i ⬝ᵥ v i

/-- C103: `W` is the work of the tensions on the nodes of a line without damping, the nodes moving in any way.  It is
the elastic energy at the beginning less that at the end. -/
theorem C103_tension (L : Line) (x y : ℕ → ℝ → V) (hN : 1 ≤ L.N) (hs : Smooth L) (hl : ∀ j, 0 < L.l j)
    (hd : L.damp = none) (hc : L.c = 0) (hx : ∀ i ≤ L.N, ∀ t, HasDerivAt (x i) (y i t) t)
    (hlen : ∀ j < L.N, ∀ t, 100 * eps / 2 < lstr (along L x y t) j) (f : ℝ → ℕ → V)
    (hf : ∀ t, ∀ i ≤ L.N, axial (along L x y t) i = some (f t i)) (W : ℝ → ℝ)
    (hW : ∀ t, HasDerivAt W (powerOf L.N (f t) fun i => y i t) t) (a c : ℝ) :
    W c - W a = ∑ j ∈ range L.N, stretch (along L x y a) j - ∑ j ∈ range L.N, stretch (along L x y c) j := by
  have hE : ∀ t, HasDerivAt (fun t => ∑ j ∈ range L.N, stretch (along L x y t) j)
      (∑ j ∈ range L.N, pull L (max (lstr (along L x y t) j / L.l j - 1) 0) * ldstr (along L x y t) j) t := by
    intro t
    apply HasDerivAt.fun_sum
    intro j hj
    have hj' := mem_range.1 hj
    exact deriv_work (fun s => pull L (max (s / L.l j - 1) 0))
      ((pull_continuous L hs).comp (((continuous_id.div_const _).sub continuous_const).max continuous_const)) _
      (lstr_deriv L x y t j hj' (fun i hi => hx i hi t) (hlen j hj' t))
  have hP : ∀ t, powerOf L.N (f t) (fun i => y i t) =
      -∑ j ∈ range L.N, pull L (max (lstr (along L x y t) j / L.l j - 1) 0) * ldstr (along L x y t) j := by
    intro t
    obtain ⟨td, htd, hpair⟩ := axial_pairwise (along L x y t) hN (f t) (hf t)
    unfold powerOf
    rw [sum_congr rfl (fun i hi => by rw [hpair i (by have := mem_range.1 hi; exact Nat.lt_succ_iff.1 this)])]
    have h1 := sum_pairwise L.N hN (fun j => T (along L x y t) j + td j) (fun i => dotL (y i t))
    have e1 : ∀ i u, dotL (y i t) u = u ⬝ᵥ y i t := fun _ _ => rfl
    simp only [e1] at h1
    rw [show (along L x y t).N = L.N from rfl, h1, ← sum_neg_distrib]
    apply sum_congr rfl
    intro j hj
    have hj' := mem_range.1 hj
    have htd0 : td j = 0 := by
      have h2 := htd j hj'
      have h3 : Td (along L x y t) j = some ((L.c * L.A * ldstr (along L x y t) j / L.l j) • qs (along L x y t) j) := by
        unfold Td getNonlinearC
        rw [show (along L x y t).damp = none from hd]
        rfl
      rw [h3, hc] at h2
      simpa using (Option.some.inj h2).symm
    rw [htd0, add_zero, T_pull (along L x y t) hs j (hl j)]
    have h4 := dampingPower_eq (along L x y t) j (pull L (max (lstr (along L x y t) j / L.l j - 1) 0))
    unfold dampingPower at h4
    rw [neg_dotProduct] at h4
    show pull L _ • _ ⬝ᵥ _ - pull L _ • _ ⬝ᵥ _ = _
    rw [← h4]
    rfl
  have hG : ∀ t, HasDerivAt (fun t => W t + ∑ j ∈ range L.N, stretch (along L x y t) j) 0 t := by
    intro t
    refine ((hW t).add (hE t)).congr_deriv ?_
    rw [hP]
    ring
  have h := is_const_of_deriv_eq_zero (fun t => (hG t).differentiableAt) (fun t => (hG t).deriv) c a
  linarith

/-- C103: in particular nothing over a closed cycle. -/
theorem C103_tension_cycle (L : Line) (x y : ℕ → ℝ → V) (hN : 1 ≤ L.N) (hs : Smooth L) (hl : ∀ j, 0 < L.l j)
    (hd : L.damp = none) (hc : L.c = 0) (hx : ∀ i ≤ L.N, ∀ t, HasDerivAt (x i) (y i t) t)
    (hlen : ∀ j < L.N, ∀ t, 100 * eps / 2 < lstr (along L x y t) j) (f : ℝ → ℕ → V)
    (hf : ∀ t, ∀ i ≤ L.N, axial (along L x y t) i = some (f t i)) (W : ℝ → ℝ)
    (hW : ∀ t, HasDerivAt W (powerOf L.N (f t) fun i => y i t) t) (a c : ℝ) (hcl : ∀ i ≤ L.N, x i a = x i c) :
    W c = W a := by
  have h := C103_tension L x y hN hs hl hd hc hx hlen f hf W hW a c
  have h1 : ∑ j ∈ range L.N, stretch (along L x y a) j = ∑ j ∈ range L.N, stretch (along L x y c) j := by
    apply sum_congr rfl
    intro j hj
    have hj' := mem_range.1 hj
    have : lstr (along L x y a) j = lstr (along L x y c) j := by
      rw [lstr_eq, lstr_eq]
      show Mooring.norm (x (j + 1) a - x j a) = Mooring.norm (x (j + 1) c - x j c)
      rw [hcl _ hj', hcl _ hj'.le]
    unfold stretch
    rw [this]
    rfl
  linarith

/-! ## Bending -/

/-- Two segments of length `ℓ` with the angle `θ` between them. -/
noncomputable def shape (ℓ θ : ℝ) (i : ℕ) : V :=
  if i = 0 then ![-ℓ, 0, 0] else if i = 1 then 0 else ![ℓ * Real.cos θ, ℓ * Real.sin θ, 0]

/-- Velocities of its nodes. -/
noncomputable def shapeVel (ℓ θ ℓ' θ' : ℝ) (i : ℕ) : V :=
  if i = 0 then ![-ℓ', 0, 0] else if i = 1 then 0
  else ![ℓ' * Real.cos θ - ℓ * Real.sin θ * θ', ℓ' * Real.sin θ + ℓ * Real.cos θ * θ', 0]

/-- Two segments, bending stiffness 1, pinned ends. -/
noncomputable def beam : Line := { chain with N := 2, EI := 1 }

theorem shape_deriv (ℓ θ ℓ' θ' : ℝ → ℝ) (t : ℝ) (hℓ : HasDerivAt ℓ (ℓ' t) t) (hθ : HasDerivAt θ (θ' t) t) (i : ℕ) :
    HasDerivAt (fun t => shape (ℓ t) (θ t) i) (shapeVel (ℓ t) (θ t) (ℓ' t) (θ' t) i) t := by
  unfold shape shapeVel
  split
  · rw [hasDerivAt_pi]
    intro k
    fin_cases k
    · exact hℓ.neg
    · simpa using hasDerivAt_const t (0 : ℝ)
    · simpa using hasDerivAt_const t (0 : ℝ)
  · split
    · exact hasDerivAt_const _ _
    · rw [hasDerivAt_pi]
      intro k
      fin_cases k
      · refine (hℓ.mul hθ.cos).congr_deriv ?_
        simp
        ring
      · refine (hℓ.mul hθ.sin).congr_deriv ?_
        simp
        ring
      · simpa using hasDerivAt_const t (0 : ℝ)

/-- Its geometry. -/
theorem beam_geometry (ℓ θ ℓ' θ' : ℝ) (h1 : 1 ≤ ℓ) (h2 : ℓ ≤ 2) (hθ : Real.pi / 3 ≤ θ) (hθ' : θ ≤ 2 * Real.pi / 3) (L : Line)
    (hL : L = { beam with r := shape ℓ θ, rd := shapeVel ℓ θ ℓ' θ' }) :
    qs L 0 = ![1, 0, 0] ∧ qs L 1 = ![Real.cos θ, Real.sin θ, 0] ∧ lstr L 0 = ℓ ∧ lstr L 1 = ℓ ∧
      Kurv L 1 = 2 / ℓ * Real.sin (θ / 2) ∧ pvec L 1 = ![0, 0, 1] ∧ 1 / 2 ≤ Kurv L 1 ∧
      1 / 2 ≤ Mooring.norm (qs L 0 ⨯₃ qs L 1) := by
  have hpi := Real.pi_pos
  have hu0 : unitvector (L.r 0) (L.r 1) = (![1, 0, 0], ℓ) := by
    apply unitvector_eq _ _ _ _ (by linarith)
    · simp [dotProduct, Fin.sum_univ_three]
    · ext k; fin_cases k <;> simp [hL, shape]
  have hu1 : unitvector (L.r 1) (L.r 2) = (![Real.cos θ, Real.sin θ, 0], ℓ) := by
    apply unitvector_eq _ _ _ _ (by linarith)
    · simp [dotProduct, Fin.sum_univ_three]
      have := Real.cos_sq_add_sin_sq θ
      linarith
    · ext k; fin_cases k <;> simp [hL, shape]
  have hq0 : qs L 0 = ![1, 0, 0] := congrArg Prod.fst hu0
  have hq1 : qs L 1 = ![Real.cos θ, Real.sin θ, 0] := congrArg Prod.fst hu1
  have hl0 : lstr L 0 = ℓ := congrArg Prod.snd hu0
  have hl1 : lstr L 1 = ℓ := congrArg Prod.snd hu1
  have hEI : isEI L := by rw [hL]; exact Or.inl one_pos
  have hcos : Real.cos θ ≤ 1 / 2 := by
    rw [← Real.cos_pi_div_three]
    exact Real.cos_le_cos_of_nonneg_of_le_pi (by positivity) (by linarith) hθ
  have hsin : 1 / 2 ≤ Real.sin θ := by
    have hs : 0 ≤ Real.sin θ := Real.sin_nonneg_of_nonneg_of_le_pi (by linarith) (by linarith)
    have hc : -(1 / 2) ≤ Real.cos θ := by
      have : Real.cos (2 * Real.pi / 3) = -(1 / 2) := by
        rw [show 2 * Real.pi / 3 = Real.pi - Real.pi / 3 by ring, Real.cos_pi_sub, Real.cos_pi_div_three]
      rw [← this]
      exact Real.cos_le_cos_of_nonneg_of_le_pi (by linarith) (by linarith) hθ'
    have := Real.cos_sq_add_sin_sq θ
    nlinarith
  have hhalf : Real.sqrt (1 / 2 * (1 - Real.cos θ)) = Real.sin (θ / 2) := by
    have h := Real.sin_sq_eq_half_sub (θ / 2)
    rw [show 2 * (θ / 2) = θ by ring] at h
    rw [show 1 / 2 * (1 - Real.cos θ) = Real.sin (θ / 2) ^ 2 by rw [h]; ring]
    exact Real.sqrt_sq (Real.sin_nonneg_of_nonneg_of_le_pi (by linarith) (by linarith))
  have hsh : 1 / 2 ≤ Real.sin (θ / 2) := by
    rw [← hhalf]
    apply Real.le_sqrt_of_sq_le
    linarith
  have he : eps ≤ 1 / 2 := by unfold eps; norm_num
  have hN : L.N = 2 := by rw [hL]; rfl
  have hK : Kurv L 1 = 2 / ℓ * Real.sin (θ / 2) := by
    unfold Kurv
    rw [if_pos (Or.inl hEI), if_neg (by norm_num), hN, if_neg (by norm_num), Nat.sub_self, hl0, hl1, hq0, hq1]
    have hd : (![1, 0, 0] : V) ⬝ᵥ ![Real.cos θ, Real.sin θ, 0] = Real.cos θ := by simp [dotProduct, Fin.sum_univ_three]
    unfold getCurvature
    rw [hd, if_neg (by linarith), hhalf]
    have : ℓ ≠ 0 := by linarith
    field_simp
    ring
  have ht : 100 * eps / 2 < 1 / 4 := by unfold eps; norm_num
  have hKh : 1 / 2 ≤ Kurv L 1 := by
    rw [hK]
    have : 1 ≤ 2 / ℓ := by rw [one_le_div (by linarith)]; exact h2
    nlinarith
  have hKn : ¬ EqualRealNos (Kurv L 1) 0 := by
    rw [equalRealNos_zero, abs_of_nonneg (by linarith)]
    linarith
  have hx : (![1, 0, 0] : V) ⨯₃ ![Real.cos θ, Real.sin θ, 0] = ![0, 0, Real.sin θ] := by
    ext k; fin_cases k <;> simp [cross_apply]
  have hn : Mooring.norm (![0, 0, Real.sin θ] : V) = Real.sin θ := by
    apply norm_eq _ _ (by linarith)
    simp [dotProduct, Fin.sum_univ_three]
  have hp : pvec L 1 = ![0, 0, 1] := by
    rw [pvec_inner L 1 (by norm_num) (by rw [hN]; norm_num) hKn, Nat.sub_self, hq0, hq1]
    rw [hx, hn, if_neg]
    · have : Real.sin θ ≠ 0 := by linarith
      ext k; fin_cases k <;> simp [this]
    · rw [equalRealNos_zero, abs_of_nonneg (by linarith)]
      linarith
  exact ⟨hq0, hq1, hl0, hl1, hK, hp, hKh, by rw [hq0, hq1, hx, hn]; exact hsin⟩

/-- The power of the bending forces: the moment `(2 / ℓ) sin (θ / 2)` against the turning of one segment. -/
theorem beam_power (ℓ θ ℓ' θ' : ℝ) (h1 : 1 ≤ ℓ) (h2 : ℓ ≤ 2) (hθ : Real.pi / 3 ≤ θ) (hθ' : θ ≤ 2 * Real.pi / 3) :
    powerOf 2 (Bs { beam with r := shape ℓ θ, rd := shapeVel ℓ θ ℓ' θ' }) (shapeVel ℓ θ ℓ' θ') =
      -(2 / ℓ * Real.sin (θ / 2) * θ') := by
  set L : Line := { beam with r := shape ℓ θ, rd := shapeVel ℓ θ ℓ' θ' } with hL
  obtain ⟨hq0, hq1, hl0, hl1, hK, hp, -, -⟩ := beam_geometry ℓ θ ℓ' θ' h1 h2 hθ hθ' L hL
  have hEI : isEI L := Or.inl one_pos
  have hN : L.N = 2 := rfl
  have hω0 : segOmega L 0 = 0 := by
    unfold segOmega
    rw [hq0]
    ext k; fin_cases k <;> simp [cross_apply, hL, shapeVel]
  have hω1 : segOmega L 1 = ![0, 0, θ'] := by
    unfold segOmega
    rw [hq1, hl1]
    have hne : ℓ ≠ 0 := by linarith
    have := Real.cos_sq_add_sin_sq θ
    ext k
    fin_cases k
    · simp [cross_apply, hL, shapeVel]
    · simp [cross_apply, hL, shapeVel]
    · simp [cross_apply, hL, shapeVel]
      field_simp
      linear_combination (ℓ * θ') * this
  have h := C29_bending_power L (by rw [hN]; norm_num) hEI rfl rfl
  rw [hN] at h
  show ∑ i ∈ range 3, Bs L i ⬝ᵥ L.rd i = _
  rw [h]
  simp only [Nat.add_one_sub_one, sum_range_one, zero_add]
  rw [hω0, hω1, hp, hK]
  have hE : getNonlinearEI L (2 / ℓ * Real.sin (θ / 2)) = 1 := by
    unfold getNonlinearEI
    rfl
  rw [hE]
  simp [dotProduct, Fin.sum_univ_three]

/-- C103 is false for bending: bent while long, shortened, straightened while short and lengthened again, a line is back
where it was, and its bending forces have given work.  The curvature is computed with the stretched lengths of the
segments, so that stretching a bent line changes its bending energy, but there is no force against that. -/
theorem C103_bending_false : ∃ (L : Line) (x y : Fin 4 → ℕ → ℝ → V) (W : Fin 4 → ℝ → ℝ),
    L.endTypeA = .PINNED ∧ L.endTypeB = .PINNED ∧ L.bstiff = none ∧
    (∀ k i t, HasDerivAt (x k i) (y k i t) t) ∧ (∀ k i, x k i 1 = x (k + 1) i 0) ∧
    (∀ k, ∀ t ∈ Set.Icc (0 : ℝ) 1,
      HasDerivAt (W k) (powerOf L.N (Bs (along L (x k) (y k) t)) fun i => y k i t) t) ∧
    0 < ∑ k, (W k 1 - W k 0) := by
  let ℓ : Fin 4 → ℝ → ℝ := ![fun _ => 2, fun t => 2 - t, fun _ => 1, fun t => 1 + t]
  let ℓ' : Fin 4 → ℝ := ![0, -1, 0, 1]
  let θ : Fin 4 → ℝ → ℝ := ![fun t => Real.pi / 3 * (1 + t), fun _ => 2 * Real.pi / 3, fun t => Real.pi / 3 * (2 - t),
    fun _ => Real.pi / 3]
  let θ' : Fin 4 → ℝ := ![Real.pi / 3, 0, -(Real.pi / 3), 0]
  have hpi := Real.pi_pos
  have hℓ : ∀ k t, HasDerivAt (ℓ k) (ℓ' k) t := by
    intro k t
    fin_cases k
    · exact hasDerivAt_const _ _
    · simpa [ℓ, ℓ'] using (hasDerivAt_id t).const_sub 2
    · exact hasDerivAt_const _ _
    · simpa [ℓ, ℓ'] using (hasDerivAt_id t).const_add 1
  have hθ : ∀ k t, HasDerivAt (θ k) (θ' k) t := by
    intro k t
    fin_cases k
    · simpa [θ, θ'] using ((hasDerivAt_id t).const_add 1).const_mul (Real.pi / 3)
    · exact hasDerivAt_const _ _
    · simpa [θ, θ'] using ((hasDerivAt_id t).const_sub 2).const_mul (Real.pi / 3)
    · exact hasDerivAt_const _ _
  refine ⟨beam, fun k i t => shape (ℓ k t) (θ k t) i, fun k i t => shapeVel (ℓ k t) (θ k t) (ℓ' k) (θ' k) i,
    ![fun t => 2 * Real.cos (Real.pi / 3 * (1 + t) / 2), fun _ => 0, fun t => 4 * Real.cos (Real.pi / 3 * (2 - t) / 2), fun _ => 0],
    rfl, rfl, rfl, ?_, ?_, ?_, ?_⟩
  · intro k i t
    exact shape_deriv (ℓ k) (θ k) (fun _ => ℓ' k) (fun _ => θ' k) t (hℓ k t) (hθ k t) i
  · intro k i
    fin_cases k <;> simp [ℓ, θ] <;> norm_num <;> congr 1 <;> ring
  · intro k t ht
    have hb := beam_power (ℓ k t) (θ k t) (ℓ' k) (θ' k) (by
      have := ht.1; have := ht.2
      fin_cases k <;> simp [ℓ] <;> linarith) (by
      have := ht.1; have := ht.2
      fin_cases k <;> simp [ℓ] <;> linarith) (by
      have := ht.1; have := ht.2
      fin_cases k <;> simp [θ] <;> nlinarith) (by
      have := ht.1; have := ht.2
      fin_cases k <;> simp [θ] <;> nlinarith)
    show HasDerivAt _ (powerOf 2 (Bs { beam with r := shape (ℓ k t) (θ k t), rd := shapeVel (ℓ k t) (θ k t) (ℓ' k) (θ' k) })
      (shapeVel (ℓ k t) (θ k t) (ℓ' k) (θ' k))) t
    rw [hb]
    fin_cases k
    · have := (((hθ 0 t).div_const 2).cos).const_mul 2
      refine this.congr_deriv ?_
      simp [ℓ, θ, θ']
      ring
    · refine (hasDerivAt_const t (0 : ℝ)).congr_deriv ?_
      simp [θ']
    · have := (((hθ 2 t).div_const 2).cos).const_mul 4
      refine this.congr_deriv ?_
      simp [ℓ, θ, θ']
      ring
    · refine (hasDerivAt_const t (0 : ℝ)).congr_deriv ?_
      simp [θ']
  · rw [Fin.sum_univ_four]
    simp
    have h1 : Real.cos (Real.pi / 3 * (1 + 1) / 2) = 1 / 2 := by
      rw [← Real.cos_pi_div_three]; congr 1; ring
    have h2 : Real.cos (Real.pi / 3 / 2) = Real.sqrt 3 / 2 := by
      rw [← Real.cos_pi_div_six]; congr 1; ring
    have h3 : Real.cos (Real.pi / 3 * (2 - 1) / 2) = Real.sqrt 3 / 2 := by
      rw [← Real.cos_pi_div_six]; congr 1; ring
    have h4 : Real.cos (Real.pi / 3 * 2 / 2) = 1 / 2 := by
      rw [← Real.cos_pi_div_three]; congr 1; ring
    rw [h1, h2, h3]
    have : (1 : ℝ) < Real.sqrt 3 := by rw [Real.lt_sqrt (by norm_num)]; norm_num
    linarith

/-- Bending energy of two segments of lengths `ℓ₁`, `ℓ₂` with directions `a`, `b`: the moment `EI K` integrated over the
angle. -/
noncomputable def bend (EI ℓ₁ ℓ₂ : ℝ) (a b : V) : ℝ := EI * (8 / (ℓ₁ + ℓ₂)) * (1 - Real.sqrt ((1 + a ⬝ᵥ b) / 2))

theorem cross_dot (a a' b b' : V) (ha : a ⬝ᵥ a = 1) (hb : b ⬝ᵥ b = 1) (ha' : a ⬝ᵥ a' = 0) (hb' : b ⬝ᵥ b' = 0) :
    (a ⨯₃ b) ⬝ᵥ (b ⨯₃ b' - a ⨯₃ a') = -(a' ⬝ᵥ b + a ⬝ᵥ b') := by
  simp only [dotProduct, Fin.sum_univ_three] at ha hb ha' hb'
  simp only [dotProduct, Fin.sum_univ_three, cross_apply, Pi.sub_apply, Matrix.cons_val_zero, Matrix.cons_val_one,
    Matrix.cons_val]
  grobner

theorem cross_sq (a b : V) (ha : a ⬝ᵥ a = 1) (hb : b ⬝ᵥ b = 1) :
    (a ⨯₃ b) ⬝ᵥ (a ⨯₃ b) = 1 - (a ⬝ᵥ b) ^ 2 := by
  simp only [dotProduct, Fin.sum_univ_three] at ha hb
  simp only [dotProduct, Fin.sum_univ_three, cross_apply, Matrix.cons_val_zero, Matrix.cons_val_one, Matrix.cons_val]
  grobner

theorem same_rate (EI ℓ k p r : ℝ) (hp : p ≠ 0) (hr : r ≠ 0) (hℓ : ℓ ≠ 0) :
    EI * (8 / ℓ) * -(k / 2 / (2 * r)) = 4 / ℓ * p * EI * (1 / (2 * (p * r)) * -k) := by
  field_simp
  ring

/-- C103, what is true of bending: as long as the segments keep their lengths and are neither straight nor folded
together (`bent`), the bending forces of a line with pinned ends give back what was put in. -/
theorem C103_bending_partial (L : Line) (x y : ℕ → ℝ → V) (hN : 1 ≤ L.N) (hA : L.endTypeA = .PINNED)
    (hB : L.endTypeB = .PINNED) (hEI : 0 < L.EI) (hb : L.bstiff = none) (hx : ∀ i ≤ L.N, ∀ t, HasDerivAt (x i) (y i t) t)
    (ℓ : ℕ → ℝ) (hℓ : ∀ j < L.N, 100 * eps / 2 < ℓ j) (hlen : ∀ j < L.N, ∀ t, lstr (along L x y t) j = ℓ j)
    (bent : ∀ i, i + 1 < L.N → ∀ t, 100 * eps / 2 < Kurv (along L x y t) (i + 1) ∧
      100 * eps / 2 < Mooring.norm (qs (along L x y t) i ⨯₃ qs (along L x y t) (i + 1))) (W : ℝ → ℝ)
    (hW : ∀ t, HasDerivAt W (powerOf L.N (Bs (along L x y t)) fun i => y i t) t) (a c : ℝ) :
    W c - W a =
      ∑ i ∈ range (L.N - 1), bend L.EI (ℓ i) (ℓ (i + 1)) (qs (along L x y a) i) (qs (along L x y a) (i + 1)) -
      ∑ i ∈ range (L.N - 1), bend L.EI (ℓ i) (ℓ (i + 1)) (qs (along L x y c) i) (qs (along L x y c) (i + 1)) := by
  have hpos : ∀ j < L.N, 0 < ℓ j := fun j hj => tol_pos.trans (hℓ j hj)
  have hunit : ∀ j < L.N, ∀ t, qs (along L x y t) j ⬝ᵥ qs (along L x y t) j = 1 := fun j hj t =>
    qs_unit _ j (by rw [hlen j hj t]; exact hℓ j hj)
  have hq : ∀ j < L.N, ∀ t, qs (along L x y t) j = (1 / ℓ j) • (x (j + 1) t - x j t) := by
    intro j hj t
    have h := lstr_smul_qs (along L x y t) j (by rw [hlen j hj t]; exact hℓ j hj)
    rw [hlen j hj t] at h
    have h2 : x (j + 1) t - x j t = ℓ j • qs (along L x y t) j := h.symm
    rw [h2, smul_smul, one_div_mul_cancel (hpos j hj).ne', one_smul]
  have hqd : ∀ j < L.N, ∀ t, HasDerivAt (fun t => qs (along L x y t) j) ((1 / ℓ j) • (y (j + 1) t - y j t)) t := by
    intro j hj t
    have : (fun t => qs (along L x y t) j) = fun t => (1 / ℓ j) • (x (j + 1) t - x j t) := funext (hq j hj)
    rw [this]
    exact ((hx (j + 1) hj t).sub (hx j hj.le t)).const_smul (1 / ℓ j)
  have horth : ∀ j < L.N, ∀ t, qs (along L x y t) j ⬝ᵥ ((1 / ℓ j) • (y (j + 1) t - y j t)) = 0 := by
    intro j hj t
    have h1 := deriv_dot (hqd j hj t) (hqd j hj t)
    have h2 : (fun t => qs (along L x y t) j ⬝ᵥ qs (along L x y t) j) = fun _ => 1 := funext (hunit j hj)
    rw [h2] at h1
    have h3 := h1.unique (hasDerivAt_const t (1 : ℝ))
    rw [dotProduct_comm ((1 / ℓ j) • _)] at h3
    linarith
  have hω : ∀ j < L.N, ∀ t, segOmega (along L x y t) j = qs (along L x y t) j ⨯₃ ((1 / ℓ j) • (y (j + 1) t - y j t)) := by
    intro j hj t
    unfold segOmega
    rw [hlen j hj t, map_smul]
    rfl
  have hU : ∀ t, HasDerivAt (fun t => ∑ i ∈ range (L.N - 1),
        bend L.EI (ℓ i) (ℓ (i + 1)) (qs (along L x y t) i) (qs (along L x y t) (i + 1)))
      (∑ i ∈ range (L.N - 1), Kurv (along L x y t) (i + 1) * getNonlinearEI (along L x y t) (Kurv (along L x y t) (i + 1)) *
        (pvec (along L x y t) (i + 1) ⬝ᵥ (segOmega (along L x y t) (i + 1) - segOmega (along L x y t) i))) t := by
    intro t
    apply HasDerivAt.fun_sum
    intro i hi
    have hi1 : i + 1 < L.N := by have := mem_range.1 hi; omega
    have hi0 : i < L.N := by omega
    have hK := (bent i hi1 t).1
    have hn := (bent i hi1 t).2
    set A := qs (along L x y t) i with hAd
    set B := qs (along L x y t) (i + 1) with hBd
    set A' := (1 / ℓ i) • (y (i + 1) t - y i t) with hA'
    set B' := (1 / ℓ (i + 1)) • (y (i + 1 + 1) t - y (i + 1) t) with hB'
    set k := A ⬝ᵥ B with hk
    have hAu : A ⬝ᵥ A = 1 := hunit i hi0 t
    have hBu : B ⬝ᵥ B = 1 := hunit (i + 1) hi1 t
    have hsq := cross_sq A B hAu hBu
    have hnorm : 0 < 1 - k ^ 2 := by
      rw [hk, ← hsq, ← norm_sq]
      exact pow_pos (tol_pos.trans hn) 2
    have hk1 : -1 < k := by nlinarith
    have hk2 : k < 1 := by nlinarith
    have hd := deriv_dot (hqd i hi0 t) (hqd (i + 1) hi1 t)
    have hc := hd.const_add 1 |>.div_const 2 |>.sqrt (by show (1 + k) / 2 ≠ 0; linarith)
    have hfin := (hc.const_sub 1).const_mul (L.EI * (8 / (ℓ i + ℓ (i + 1))))
    refine hfin.congr_deriv ?_
    -- the other side
    have hisEI : isEI (along L x y t) := Or.inl hEI
    have hKv : Kurv (along L x y t) (i + 1) = 4 / (ℓ i + ℓ (i + 1)) * Real.sqrt (1 / 2 * (1 - k)) := by
      have e : Kurv (along L x y t) (i + 1) = getCurvature (ℓ i + ℓ (i + 1)) A B := by
        unfold Kurv
        rw [if_pos (Or.inl hisEI), if_neg (by omega), if_neg (show ¬ i + 1 = (along L x y t).N from (by show ¬ i + 1 = L.N; omega)), Nat.add_sub_cancel,
          hlen i hi0, hlen (i + 1) hi1]
      rw [e] at hK ⊢
      unfold getCurvature at hK ⊢
      by_cases h : A ⬝ᵥ B + eps > 1
      · rw [if_pos h] at hK
        exact absurd hK (not_lt.2 tol_pos.le)
      · rw [if_neg h]
    have hKn : ¬ EqualRealNos (Kurv (along L x y t) (i + 1)) 0 := by
      rw [equalRealNos_zero, abs_of_pos (tol_pos.trans hK)]
      exact not_le.2 hK
    have hp : pvec (along L x y t) (i + 1) = (1 / Mooring.norm (A ⨯₃ B)) • (A ⨯₃ B) := by
      rw [pvec_inner (along L x y t) _ (by omega) (show i + 1 ≠ (along L x y t).N from (by show i + 1 ≠ L.N; omega)) hKn, Nat.add_sub_cancel, if_neg]
      rw [equalRealNos_zero, abs_of_pos (tol_pos.trans hn)]
      exact not_le.2 hn
    have hE : getNonlinearEI (along L x y t) (Kurv (along L x y t) (i + 1)) = L.EI := by
      unfold getNonlinearEI
      rw [show (along L x y t).bstiff = none from hb]
      rfl
    have hcd := cross_dot A A' B B' hAu hBu (horth i hi0 t) (horth (i + 1) hi1 t)
    have hω2 : segOmega (along L x y t) (i + 1) - segOmega (along L x y t) i = B ⨯₃ B' - A ⨯₃ A' := by
      rw [hω i hi0, hω (i + 1) hi1]
    rw [hE, hp, hω2, smul_dotProduct (1 / Mooring.norm (A ⨯₃ B)), hcd, hKv, smul_eq_mul]
    have hs : Mooring.norm (A ⨯₃ B) = 2 * (Real.sqrt (1 / 2 * (1 - k)) * Real.sqrt ((1 + k) / 2)) := by
      unfold Mooring.norm
      rw [hsq, ← Real.sqrt_mul (by linarith), show (1 : ℝ) - (A ⬝ᵥ B) ^ 2 = 2 ^ 2 * (1 / 2 * (1 - k) * ((1 + k) / 2)) by
        rw [← hk]; ring, Real.sqrt_mul (by norm_num), Real.sqrt_sq (by norm_num)]
    have h1 : Real.sqrt (1 / 2 * (1 - k)) ≠ 0 := (Real.sqrt_pos.2 (by linarith)).ne'
    have h2 : Real.sqrt ((1 + k) / 2) ≠ 0 := (Real.sqrt_pos.2 (by linarith)).ne'
    have h3 : ℓ i + ℓ (i + 1) ≠ 0 := (add_pos (hpos i hi0) (hpos (i + 1) hi1)).ne'
    rw [hs]
    show L.EI * (8 / (ℓ i + ℓ (i + 1))) * -((A' ⬝ᵥ B + A ⬝ᵥ B') / 2 / (2 * Real.sqrt ((1 + k) / 2))) = _
    exact same_rate _ _ _ _ _ h1 h2 h3
  have hP : ∀ t, powerOf L.N (Bs (along L x y t)) (fun i => y i t) =
      -∑ i ∈ range (L.N - 1), Kurv (along L x y t) (i + 1) * getNonlinearEI (along L x y t) (Kurv (along L x y t) (i + 1)) *
        (pvec (along L x y t) (i + 1) ⬝ᵥ (segOmega (along L x y t) (i + 1) - segOmega (along L x y t) i)) := fun t =>
    C29_bending_power (along L x y t) hN (Or.inl hEI) hA hB
  have hG : ∀ t, HasDerivAt (fun t => W t + ∑ i ∈ range (L.N - 1),
        bend L.EI (ℓ i) (ℓ (i + 1)) (qs (along L x y t) i) (qs (along L x y t) (i + 1))) 0 t := by
    intro t
    refine ((hW t).add (hU t)).congr_deriv ?_
    rw [hP]
    ring
  have h := is_const_of_deriv_eq_zero (fun t => (hG t).differentiableAt) (fun t => (hG t).deriv) c a
  linarith

/-- The hypotheses of `C103_bending_partial` hold for two segments swinging to and fro. -/
example (W : ℝ → ℝ) (hW : ∀ t, HasDerivAt W (powerOf 2 (Bs (along beam
      (fun i t => shape 1 (Real.pi / 2 + Real.sin t / 4) i)
      (fun i t => shapeVel 1 (Real.pi / 2 + Real.sin t / 4) 0 (Real.cos t / 4) i) t))
      fun i => shapeVel 1 (Real.pi / 2 + Real.sin t / 4) 0 (Real.cos t / 4) i) t) :
    W (2 * Real.pi) = W 0 := by
  have hg : ∀ t, _ := fun t => beam_geometry 1 (Real.pi / 2 + Real.sin t / 4) 0 (Real.cos t / 4) le_rfl (by norm_num)
    (by have := Real.neg_one_le_sin t; have := Real.pi_gt_three; linarith)
    (by have := Real.sin_le_one t; have := Real.pi_gt_three; linarith) _ rfl
  have ht : 100 * eps / 2 < 1 / 4 := by unfold eps; norm_num
  have h := C103_bending_partial beam (fun i t => shape 1 (Real.pi / 2 + Real.sin t / 4) i)
    (fun i t => shapeVel 1 (Real.pi / 2 + Real.sin t / 4) 0 (Real.cos t / 4) i) (by show 1 ≤ 2; norm_num) rfl rfl one_pos rfl
    (fun i _ t => shape_deriv (fun _ => 1) (fun t => Real.pi / 2 + Real.sin t / 4) (fun _ => 0) (fun t => Real.cos t / 4) t
      (hasDerivAt_const _ _) (((Real.hasDerivAt_sin t).div_const 4).const_add _) i)
    (fun _ => 1) (fun _ _ => tol_lt_one)
    (by
      intro j hj t
      have : j = 0 ∨ j = 1 := by change j < 2 at hj; omega
      rcases this with rfl | rfl
      · exact (hg t).2.2.1
      · exact (hg t).2.2.2.1)
    (by
      intro i hi t
      change i + 1 < 2 at hi
      obtain rfl : i = 0 := by omega
      have h1 := (hg t).2.2.2.2.2.2.1
      have h2 := (hg t).2.2.2.2.2.2.2
      exact ⟨lt_of_lt_of_le (by linarith) h1, lt_of_lt_of_le (by linarith) h2⟩)
    W hW 0 (2 * Real.pi)
  have hsame : along beam (fun i t => shape 1 (Real.pi / 2 + Real.sin t / 4) i)
      (fun i t => shapeVel 1 (Real.pi / 2 + Real.sin t / 4) 0 (Real.cos t / 4) i) (2 * Real.pi) =
      along beam (fun i t => shape 1 (Real.pi / 2 + Real.sin t / 4) i)
      (fun i t => shapeVel 1 (Real.pi / 2 + Real.sin t / 4) 0 (Real.cos t / 4) i) 0 := by
    unfold along
    simp
  rw [hsame] at h
  linarith

/-- The hypotheses of `C103_tension` hold for the chain hanging from a point that moves up and down. -/
example (W : ℝ → ℝ) (f : ℝ → ℕ → V)
    (hf : ∀ t, ∀ i ≤ 1, axial (along chain (fun i t => if i = 0 then 0 else ![0, 0, 20 + Real.sin t])
      (fun i t => if i = 0 then 0 else ![0, 0, Real.cos t]) t) i = some (f t i))
    (hW : ∀ t, HasDerivAt W (powerOf 1 (f t) fun i => if i = 0 then 0 else ![0, 0, Real.cos t]) t) :
    W (2 * Real.pi) = W 0 := by
  refine C103_tension_cycle chain (fun i t => if i = 0 then 0 else ![0, 0, 20 + Real.sin t])
    (fun i t => if i = 0 then 0 else ![0, 0, Real.cos t]) le_rfl chain_passive.smooth chain_passive.l rfl rfl ?_ ?_ f hf W hW
    0 (2 * Real.pi) ?_
  · intro i _ t
    by_cases h : i = 0
    · simp only [h, if_true]
      exact hasDerivAt_const _ _
    · simp only [if_neg h]
      rw [hasDerivAt_pi]
      intro k
      fin_cases k
      · simpa using hasDerivAt_const t (0 : ℝ)
      · simpa using hasDerivAt_const t (0 : ℝ)
      · simpa using (Real.hasDerivAt_sin t).const_add 20
  · intro j hj t
    obtain rfl : j = 0 := by change j < 1 at hj; omega
    have hs := Real.neg_one_le_sin t
    have : lstr (along chain (fun i t => if i = 0 then 0 else ![0, 0, 20 + Real.sin t])
      (fun i t => if i = 0 then 0 else ![0, 0, Real.cos t]) t) 0 = 20 + Real.sin t := by
      rw [lstr_eq]
      apply norm_eq _ _ (by linarith)
      simp [along, dotProduct, Fin.sum_univ_three]
    rw [this]
    have := tol_lt_one
    linarith
  · intro i _
    simp

end MD.Elastic
