import Verif.Props.LineLoads
import Verif.Props.LineForces
import Verif.Props.Point
import Verif.Model.Moored
import Mathlib.MeasureTheory.Integral.IntervalIntegral.FundThmCalculus
import Mathlib.Analysis.Calculus.MeanValue
import Mathlib.Analysis.Calculus.Deriv.Prod
import Mathlib.Analysis.SpecialFunctions.Sqrt

/-!
# C102: in still water a mooring system does not gain energy
-/

set_option linter.unusedSimpArgs false
set_option linter.unusedVariables false

namespace MD.Energy

open Matrix Finset MD.Mat MD.Mooring MD.Bodies MD.Moored

/-! ## Specification: mechanical energy -/

/-- The axial force at a strain that is not negative. -/
noncomputable def pull (L : Line) (x : ℝ) : ℝ :=
  match L.stiff with
  | none => L.E * x * L.A
  | some f => f x * L.A

/-- Work done to stretch a segment to its length; none is needed to slacken it. -/
noncomputable def stretch (L : Line) (j : ℕ) : ℝ :=
  ∫ s in (L.l j)..(lstr L j), pull L (max (s / L.l j - 1) 0)

/-- Half of the bottom area of the segments next to a node. -/
noncomputable def sole (L : Line) (i : ℕ) : ℝ := 1 / 2 * L.d * adjacent L.N L.l i

/-- Work done to press a node into the bottom at height `b`. -/
noncomputable def soil (L : Line) (e : Env) (b : ℝ) (i : ℕ) : ℝ :=
  e.kb * sole L i * ∫ s in (0 : ℝ)..(b - L.r i 2), max s 0

/-- Mass of a node with the water it carries, `φ j` being the submerged part of segment `j`. -/
noncomputable def mass (L : Line) (e : Env) (φ : ℕ → ℝ) (i : ℕ) : ℝ :=
  m L i + e.rho_w * (1 / 2 * adjacent L.N (fun j => φ j * L.V j) i) * L.Can

/-- Weight of a node less its buoyancy. -/
noncomputable def weight (L : Line) (e : Env) (φ : ℕ → ℝ) (i : ℕ) : ℝ :=
  1 / 2 * L.A * adjacent L.N (fun j => L.l j * (L.rho - φ j * e.rho_w)) i * e.g

/-- Kinetic energy, potential energy in the field of gravity and in the bottom, elastic energy. -/
noncomputable def lineEnergy (L : Line) (e : Env) (φ : ℕ → ℝ) (b : ℝ) : ℝ :=
  ∑ i ∈ range (L.N + 1), (1 / 2 * mass L e φ i * (L.rd i ⬝ᵥ L.rd i) + weight L e φ i * L.r i 2 + soil L e b i) +
    ∑ j ∈ range L.N, stretch L j

/-- Energy of a point: of its motion, of its weight less its buoyancy, of the constant force on it. -/
noncomputable def pointEnergy (p : Point) (e : Env) : ℝ :=
  1 / 2 * (p.pointM + p.pointV * e.rho_w * p.pointCa) * (p.rd ⬝ᵥ p.rd) +
    e.g * (p.pointM - p.pointV * e.rho_w) * p.r 2 - p.pointF ⬝ᵥ p.r

/-! ## Derivatives -/

theorem deriv_dot {x y : ℝ → V} {x' y' : V} {t : ℝ} (hx : HasDerivAt x x' t) (hy : HasDerivAt y y' t) :
    HasDerivAt (fun t => x t ⬝ᵥ y t) (x' ⬝ᵥ y t + x t ⬝ᵥ y') t := by
  have h : ∀ k, HasDerivAt (fun t => x t k * y t k) (x' k * y t k + x t k * y' k) t := fun k =>
    (hasDerivAt_pi.1 hx k).mul (hasDerivAt_pi.1 hy k)
  have := ((h 0).add (h 1)).add (h 2)
  simp only [dotProduct, Fin.sum_univ_three]
  refine HasDerivAt.congr_deriv this ?_
  ring

theorem deriv_norm {u : ℝ → V} {u' : V} {t : ℝ} (hu : HasDerivAt u u' t) (h : 0 < Mooring.norm (u t)) :
    HasDerivAt (fun t => Mooring.norm (u t)) ((1 / Mooring.norm (u t)) • u t ⬝ᵥ u') t := by
  unfold Mooring.norm at h ⊢
  have hne : u t ⬝ᵥ u t ≠ 0 := fun h0 => by rw [h0, Real.sqrt_zero] at h; exact lt_irrefl _ h
  have := (deriv_dot hu hu).sqrt hne
  convert this using 1
  rw [smul_dotProduct, dotProduct_comm u', smul_eq_mul]
  field_simp
  ring

theorem deriv_work (f : ℝ → ℝ) (hf : Continuous f) (a : ℝ) {x : ℝ → ℝ} {x' t : ℝ} (hx : HasDerivAt x x' t) :
    HasDerivAt (fun t => ∫ s in a..(x t), f s) (f (x t) * x') t := by
  have h := intervalIntegral.integral_hasDerivAt_right (hf.intervalIntegrable a (x t))
    (hf.stronglyMeasurableAtFilter _ _) hf.continuousAt
  exact h.comp t hx

/-- A stiffness without a jump at zero strain. -/
def Smooth (L : Line) : Prop := ∀ f, L.stiff = some f → Continuous f ∧ f 0 = 0

theorem pull_continuous (L : Line) (h : Smooth L) : Continuous (pull L) := by
  unfold pull
  cases hs : L.stiff with
  | none => exact (continuous_const.mul continuous_id).mul continuous_const
  | some f => exact (h f hs).1.mul continuous_const

theorem pull_zero (L : Line) (h : Smooth L) : pull L 0 = 0 := by
  unfold pull
  cases hs : L.stiff with
  | none => simp
  | some f => simp [(h f hs).2]

/-- The tension of the code. -/
theorem T_pull (L : Line) (h : Smooth L) (j : ℕ) (hl : 0 < L.l j) :
    T L j = pull L (max (lstr L j / L.l j - 1) 0) • qs L j := by
  have e : (lstr L j - L.l j) / L.l j = lstr L j / L.l j - 1 := by field_simp
  unfold T
  dsimp only
  by_cases hs : lstr L j / L.l j > 1
  · rw [if_pos hs, max_eq_left (by linarith)]
    congr 1
    unfold getNonlinearE pull
    cases hst : L.stiff with
    | none =>
      dsimp only
      rw [mul_div_assoc, e]
      ring
    | some f =>
      dsimp only
      have h0 : lstr L j / L.l j - 1 ≠ 0 := by linarith
      rw [if_neg (by linarith), mul_div_assoc, e, mul_right_comm, div_mul_cancel₀ _ h0]
  · rw [if_neg hs, max_eq_right (by linarith), pull_zero L h, zero_smul]

/-- A line in motion. -/
def along (L : Line) (x y : ℕ → ℝ → V) (t : ℝ) : Line := { L with r := fun i => x i t, rd := fun i => y i t }

section
variable (L : Line) (x y : ℕ → ℝ → V) (t : ℝ)

open Classical in
theorem lstr_deriv (j : ℕ) (hj : j < L.N) (hx : ∀ i ≤ L.N, HasDerivAt (x i) (y i t) t)
    (hs : 100 * eps / 2 < lstr (along L x y t) j) :
    HasDerivAt (fun t => lstr (along L x y t) j) (ldstr (along L x y t) j) t := by
  have hpos : 0 < lstr (along L x y t) j := lt_trans (by unfold eps; positivity) hs
  have hu := (hx (j + 1) hj).sub (hx j hj.le)
  have h := deriv_norm (u := fun t => x (j + 1) t - x j t) hu hpos
  have hq : qs (along L x y t) j = (1 / lstr (along L x y t) j) • (x (j + 1) t - x j t) := by
    have e : qs (along L x y t) j = if EqualRealNos (lstr (along L x y t) j) 0 then x (j + 1) t - x j t
        else (1 / lstr (along L x y t) j) • (x (j + 1) t - x j t) := rfl
    rw [e, if_neg]
    unfold EqualRealNos
    rw [sub_zero, add_zero, abs_of_pos hpos, not_le]
    by_cases h1 : lstr (along L x y t) j ≤ 1
    · rw [max_eq_right h1, one_mul]
      exact hs
    · rw [max_eq_left (by linarith)]
      have he : 100 * eps / 2 < 1 := by unfold eps; norm_num
      nlinarith
  unfold ldstr
  rw [hq]
  exact h

theorem line_deriv (e : Env) (φ : ℕ → ℝ) (b : ℝ) (acc : ℕ → V) (hsm : Smooth L) (hl : ∀ j < L.N, 0 < L.l j)
    (hx : ∀ i ≤ L.N, HasDerivAt (x i) (y i t) t) (hy : ∀ i ≤ L.N, HasDerivAt (y i) (acc i) t)
    (hs : ∀ j < L.N, 100 * eps / 2 < lstr (along L x y t) j) :
    HasDerivAt (fun t => lineEnergy (along L x y t) e φ b)
      (∑ i ∈ range (L.N + 1), (mass L e φ i * (acc i ⬝ᵥ y i t) + weight L e φ i * y i t 2 -
          e.kb * sole L i * max (b - x i t 2) 0 * y i t 2) +
        ∑ j ∈ range L.N, pull L (max (lstr (along L x y t) j / L.l j - 1) 0) * ldstr (along L x y t) j) t := by
  unfold lineEnergy
  apply HasDerivAt.add
  · show HasDerivAt (fun t => ∑ i ∈ range (L.N + 1), _) _ t
    apply HasDerivAt.fun_sum
    intro i hi
    have hi' : i ≤ L.N := by have := mem_range.1 hi; omega
    have h1 := ((deriv_dot (hy i hi') (hy i hi')).const_mul (1 / 2 * mass L e φ i))
    have h2 := (hasDerivAt_pi.1 (hx i hi') 2).const_mul (weight L e φ i)
    have h3 := (deriv_work (fun s => max s 0) (continuous_id.max continuous_const) 0
      ((hasDerivAt_pi.1 (hx i hi') 2).const_sub b)).const_mul (e.kb * sole L i)
    have h := (h1.add h2).add h3
    refine HasDerivAt.congr_deriv h ?_
    rw [dotProduct_comm (y i t)]
    ring
  · show HasDerivAt (fun t => ∑ j ∈ range L.N, _) _ t
    apply HasDerivAt.fun_sum
    intro j hj
    have hj' := mem_range.1 hj
    exact deriv_work (fun s => pull L (max (s / L.l j - 1) 0))
      ((pull_continuous L hsm).comp (((continuous_id.div_const _).sub continuous_const).max continuous_const)) _
      (lstr_deriv L x y t j hj' hx (hs j hj'))

end

/-! ## Power of the forces on a line -/

theorem adjacent_congr {N i : ℕ} {f g : ℕ → ℝ} (hN : 1 ≤ N) (hi : i ≤ N) (h : ∀ j < N, f j = g j) :
    adjacent N f i = adjacent N g i := by
  unfold adjacent
  split
  · exact h _ (by omega)
  · split
    · exact h _ (by omega)
    · rw [h _ (by omega), h _ (by omega)]

/-- A line that can only lose energy: no bending stiffness, no internal pressure, constant damping. -/
structure Passive (L : Line) : Prop where
  N : 1 ≤ L.N
  smooth : Smooth L
  l : ∀ j, 0 < L.l j
  V : ∀ j, 0 ≤ L.V j
  d : 0 < L.d
  A : 0 ≤ L.A
  rho : 0 < L.rho
  Can : 0 ≤ L.Can
  Cdn : 0 ≤ L.Cdn
  Cdt : 0 ≤ L.Cdt
  c : 0 ≤ L.c
  damp : L.damp = none
  EI : L.EI ≤ 0
  bstiff : L.bstiff = none
  isPb : L.isPb = false

theorem not_isEI {L : Line} (h : Passive L) : ¬ isEI L := by
  unfold isEI
  rw [h.bstiff]
  simp [h.EI]

/-- Still water over a flat bottom at height `b`. -/
structure Still (e : Env) (b : ℝ) : Prop where
  rho_w : 0 ≤ e.rho_w
  cb : 0 ≤ e.cb
  friction : 0 ≤ e.frictionCoefficient
  fricDamp : 0 ≤ e.fricDamp
  flat : ∀ x y, e.waterDepth x y = b
  U : ∀ i, e.U i = 0
  Ud : ∀ i, e.Ud i = 0

section
variable {L : Line} {e : Env} {b : ℝ}

theorem drag_power (h : Passive L) (he : Still e b) (i : ℕ) (hi : i ≤ L.N) :
    (Dp L e i + Dq L e i) ⬝ᵥ L.rd i ≤ 0 := by
  have hq : ∀ i, q { L with qA := 0, qB := 0 } i = q L i := by
    intro i
    have e1 : isEI ({ L with qA := 0, qB := 0 } : Line) = isEI L := rfl
    unfold q
    rw [e1]
    simp [not_isEI h]
  obtain ⟨D, h1, h2⟩ := C32_line_drag { L with qA := 0, qB := 0 } e i hi h.d.le (fun j => (h.l j).le) he.rho_w
    h.Cdn h.Cdt (by simp) (by simp)
  unfold getNodeDrag at h1
  rw [if_neg (show ¬ i > L.N by omega)] at h1
  have e2 : Dp { L with qA := 0, qB := 0 } e i + Dq { L with qA := 0, qB := 0 } e i = Dp L e i + Dq L e i := by
    simp only [Dp, Dq, vp, vq, hq]
    rfl
  rw [e2] at h1
  obtain rfl := Option.some.inj h1
  rw [he.U, zero_sub, dotProduct_neg] at h2
  exact neg_nonneg.1 h2

theorem sole_nonneg (h : Passive L) (i : ℕ) : 0 ≤ sole L i := by
  unfold sole
  have := adjacent_nonneg L.N L.l (fun j => (h.l j).le) i
  have := h.d
  positivity

theorem bottom_power (h : Passive L) (he : Still e b) (i : ℕ) :
    B L e i ⬝ᵥ L.rd i ≤ e.kb * sole L i * max (b - L.r i 2) 0 * L.rd i 2 := by
  obtain ⟨k, hk, h0, h1⟩ := C33_opposes_motion L e i he.friction he.fricDamp
  have h2 : B L e i 2 * L.rd i 2 ≤ e.kb * sole L i * max (b - L.r i 2) 0 * L.rd i 2 := by
    unfold B
    dsimp only
    rw [he.flat]
    split
    · rename_i hz
      have hs := sole_nonneg h i
      have : 0 ≤ sole L i * e.cb * L.rd i 2 ^ 2 := mul_nonneg (mul_nonneg hs he.cb) (sq_nonneg _)
      unfold sole at this ⊢
      rw [max_eq_left (by linarith)]
      split <;> simp <;> linarith
    · rename_i hz
      rw [max_eq_right (by linarith)]
      simp
  have hn : 0 ≤ k * (L.rd i 0 * L.rd i 0 + L.rd i 1 * L.rd i 1) :=
    mul_nonneg hk (add_nonneg (mul_self_nonneg _) (mul_self_nonneg _))
  simp only [dotProduct, Fin.sum_univ_three]
  rw [h0, h1]
  linarith

/-- The net forces on the nodes have no more power than the loss of potential and elastic energy. -/
theorem line_power (h : Passive L) (he : Still e b) (φ : ℕ → ℝ) (hF : ∀ j < L.N, F L e j = φ j) :
    ∃ f : ℕ → V, (∀ i ≤ L.N, Fnet L e i = some (f i)) ∧
      ∑ i ∈ range (L.N + 1), f i ⬝ᵥ L.rd i ≤
        ∑ i ∈ range (L.N + 1), (-(weight L e φ i * L.rd i 2) +
          e.kb * sole L i * max (b - L.r i 2) 0 * L.rd i 2) -
        ∑ j ∈ range L.N, pull L (max (lstr L j / L.l j - 1) 0) * ldstr L j := by
  have hax : ∃ a : ℕ → V, ∀ i ≤ L.N, axial L i = some (a i) := by
    have ht : ∀ j, Td L j = some ((L.c * L.A * ldstr L j / L.l j) • qs L j) := by
      intro j; unfold Td getNonlinearC; rw [h.damp]; rfl
    have : ∀ i, ∃ a, axial L i = some a := by
      intro i
      unfold axial
      rw [ht, ht]
      split
      · exact ⟨_, rfl⟩
      · split <;> exact ⟨_, rfl⟩
    choose a ha using this
    exact ⟨a, fun i _ => ha i⟩
  obtain ⟨a, ha⟩ := hax
  obtain ⟨td, htd, hpair⟩ := axial_pairwise L h.N a ha
  have hBs : ∀ i, Bs L i = 0 := by
    intro i; unfold Bs; rw [if_neg (not_isEI h)]
  have hPb : ∀ i, Pb L e i = 0 := by
    intro i; unfold Pb; rw [if_neg (by rw [h.isPb]; simp)]
  have hAp : ∀ i, Ap L e i = 0 := by
    intro i; unfold Ap ap aq; rw [he.Ud]; simp
  have hAq : ∀ i, Aq L e i = 0 := by
    intro i; unfold Aq aq; rw [he.Ud]; simp
  refine ⟨fun i => a i + (W L e i + (Dp L e i + Dq L e i) + B L e i), ?_, ?_⟩
  · intro i hi
    unfold Fnet
    simp only [ha i hi, hBs, hPb, hAp, hAq, add_zero]
    rfl
  · have h1 : ∑ i ∈ range (L.N + 1), a i ⬝ᵥ L.rd i ≤
        -∑ j ∈ range L.N, pull L (max (lstr L j / L.l j - 1) 0) * ldstr L j := by
      rw [sum_congr rfl (fun i hi => by rw [hpair i (by have := mem_range.1 hi; omega)])]
      have hs := sum_pairwise L.N h.N (fun j => T L j + td j) (fun i => dotL (L.rd i))
      have e1 : ∀ i x, dotL (L.rd i) x = x ⬝ᵥ L.rd i := fun _ _ => rfl
      simp only [e1] at hs
      rw [hs, ← sum_neg_distrib]
      apply sum_le_sum
      intro j hj
      have hj' := mem_range.1 hj
      obtain ⟨td', h3, h4⟩ := C32_constant_damping L j h.damp h.c h.A (h.l j)
      rw [htd j hj'] at h3
      obtain rfl := Option.some.inj h3
      have h5 := dampingPower_eq L j (pull L (max (lstr L j / L.l j - 1) 0))
      rw [← T_pull L h.smooth j (h.l j)] at h5
      unfold dampingPower at h4 h5
      simp only [add_dotProduct, neg_dotProduct] at h4 h5 ⊢
      linarith
    have h2 : ∀ i ∈ range (L.N + 1), (W L e i + (Dp L e i + Dq L e i) + B L e i) ⬝ᵥ L.rd i ≤
        -(weight L e φ i * L.rd i 2) + e.kb * sole L i * max (b - L.r i 2) 0 * L.rd i 2 := by
      intro i hi
      have hi' : i ≤ L.N := by have := mem_range.1 hi; omega
      have hw : W L e i ⬝ᵥ L.rd i = -(weight L e φ i * L.rd i 2) := by
        have hadj : adjacent L.N (fun j => L.l j * (L.rho - F L e j * e.rho_w)) i =
            adjacent L.N (fun j => L.l j * (L.rho - φ j * e.rho_w)) i := adjacent_congr h.N hi' (by
          intro j hj; rw [hF j hj])
        unfold W weight
        rw [hadj]
        simp [dotProduct, Fin.sum_univ_three]
      have h3 := drag_power h he i hi'
      have h4 := bottom_power h he i
      rw [add_dotProduct, add_dotProduct, hw]
      linarith
    have h3 := sum_le_sum h2
    simp only [add_dotProduct (a _)]
    rw [sum_add_distrib]
    linarith

end

/-! ## Mass of a node -/

section
variable {L : Line} {e : Env} {b : ℝ}

theorem mass_pos (h : Passive L) (hr : 0 ≤ e.rho_w) (φ : ℕ → ℝ) (hφ : ∀ j, 0 ≤ φ j) (i : ℕ) : 0 < mass L e φ i := by
  have hm : 0 < m L i := by
    unfold m
    have ha : 0 < adjacent L.N L.l i := by
      unfold adjacent
      split
      · exact h.l _
      · split
        · exact h.l _
        · exact add_pos (h.l _) (h.l _)
    have := h.d
    have := h.rho
    have := Real.pi_pos
    positivity
  have hv := adjacent_nonneg L.N (fun j => φ j * L.V j) (fun j => mul_nonneg (hφ j) (h.V j)) i
  have := h.Can
  unfold mass
  positivity

/-- The mass matrix is a mass when water is carried alike along and across the line, or there is none. -/
theorem M_mass (h : Passive L) (φ : ℕ → ℝ) (hF : ∀ j < L.N, F L e j = φ j)
    (hiso : L.Can = L.Cat ∨ ∀ j < L.N, φ j = 0) (i : ℕ) (hi : i ≤ L.N) : M L e i = mass L e φ i • (1 : M3 ℝ) := by
  have hv : adjacent L.N (fun j => F L e j * L.V j) i = adjacent L.N (fun j => φ j * L.V j) i :=
    adjacent_congr h.N hi (fun j hj => by rw [hF j hj])
  unfold M v mass
  dsimp only
  rw [hv]
  rcases hiso with hc | h0
  · rw [← hc, ← smul_add, sub_add_cancel, smul_smul, add_smul]
  · have : adjacent L.N (fun j => φ j * L.V j) i = 0 := by
      rw [adjacent_congr h.N hi (g := fun _ => 0) (fun j hj => by rw [h0 j hj, zero_mul])]
      unfold adjacent
      simp
    rw [this]
    simp

end

/-! ## The system in motion -/

/-- Lines and points in motion: their parameters, and position and velocity of each node and each point. -/
structure Motion where
  line : ℕ → Line
  point : ℕ → Point
  x : ℕ → ℕ → ℝ → V
  y : ℕ → ℕ → ℝ → V
  px : ℕ → ℝ → V
  py : ℕ → ℝ → V

/-- What MoorDyn holds at a time. -/
def Motion.mem (m : Motion) (t : ℝ) : Mem where
  t := t
  line i := along (m.line i) (m.x i) (m.y i) t
  point p := { m.point p with r := m.px p t, rd := m.py p t }
  ves _ := 0
  bad := False
  edge := False

/-- Energy of all lines and points, `φ i j` being the submerged part of segment `j` of line `i`. -/
noncomputable def energy (S : System) (φ : ℕ → ℕ → ℝ) (b : ℝ) (m : Mem) : ℝ :=
  ∑ i ∈ range S.nl, lineEnergy (m.line i) S.sea (φ i) b + ∑ p ∈ range S.np, pointEnergy (m.point p) S.sea

/-- The node at an end of a line. -/
def endNode (L : Line) : EndPt → ℕ
  | .TOP => L.N
  | .BOTTOM => 0

/-- Still water over a flat bottom. -/
structure Calm (S : System) (b : ℝ) : Prop where
  rho_w : 0 ≤ S.sea.rho_w
  cb : 0 ≤ S.sea.cb
  friction : 0 ≤ S.sea.frictionCoefficient
  fricDamp : 0 ≤ S.sea.fricDamp
  flat : ∀ x y, S.sea.waterDepth x y = b
  U : ∀ t x, (S.kin t x).2.1 = 0
  Ud : ∀ t x, (S.kin t x).2.2.1 = 0

/-- Each end of each line is attached to one point, once. -/
def Wired (S : System) : Prop :=
  ((List.range S.np).flatMap S.att).Perm ((List.range S.nl).flatMap fun i => [(i, .BOTTOM), (i, .TOP)])

/-- What the theorem asks of the lines and points. -/
structure Sober (S : System) (m : Motion) (φ : ℕ → ℕ → ℝ) : Prop where
  line : ∀ i < S.nl, Passive (m.line i)
  sub : ∀ i j, 0 ≤ φ i j
  iso : ∀ i < S.nl, (m.line i).Can = (m.line i).Cat ∨ ∀ j < (m.line i).N, φ i j = 0
  M : ∀ p < S.np, 0 ≤ (m.point p).pointM
  V : ∀ p < S.np, 0 ≤ (m.point p).pointV
  Ca : ∀ p < S.np, 0 ≤ (m.point p).pointCa
  CdA : ∀ p < S.np, 0 ≤ (m.point p).pointCdA
  heavy : ∀ p < S.np, S.kind p = .FREE → 0 < (m.point p).pointM ∨ S.att p ≠ []

/-- The motion obeys the rates of the code at a time: the velocities of inner nodes and free points have
the accelerations which `nodeRate` and `pointRate` give. -/
structure Obeys (S : System) (m : Motion) (φ : ℕ → ℕ → ℝ) (t : ℝ) : Prop where
  node : ∀ i < S.nl, ∀ j ≤ (m.line i).N, HasDerivAt (m.x i j) (m.y i j t) t
  point : ∀ p < S.np, HasDerivAt (m.px p) (m.py p t) t
  inner : ∀ i < S.nl, ∀ j, 0 < j → j < (m.line i).N →
    ∃ k, nodeRate S (m.mem t) i j = some k ∧ HasDerivAt (m.y i j) k.2 t
  free : ∀ p < S.np, S.kind p = .FREE → ∃ k, pointRate S (m.mem t) p = some k ∧ HasDerivAt (m.py p) k.2 t
  sub : ∀ i < S.nl, ∀ j < (m.line i).N, F ((m.mem t).line i) (lineEnv S (m.mem t) i) j = φ i j
  long : ∀ i < S.nl, ∀ j < (m.line i).N, 100 * eps / 2 < lstr ((m.mem t).line i) j

/-- The ends of the lines move with their points; points that are not free have constant velocities, as
`MoorDyn_Step` gives them during a step. -/
structure Joined (S : System) (m : Motion) : Prop where
  ends : ∀ p < S.np, ∀ a ∈ S.att p, m.x a.1 (endNode (m.line a.1) a.2) = m.px p ∧
    m.y a.1 (endNode (m.line a.1) a.2) = m.py p
  led : ∀ p < S.np, S.kind p ≠ .FREE → ∀ t t', m.py p t = m.py p t'

theorem sum_ends (S : System) (hw : Wired S) (G : ℕ × EndPt → ℝ) :
    ∑ i ∈ range S.nl, (G (i, .BOTTOM) + G (i, .TOP)) = ∑ p ∈ range S.np, ((S.att p).map G).sum := by
  have h := (hw.map G).sum_eq
  have e : ∀ (n : ℕ) (f : ℕ → List (ℕ × EndPt)),
      (((List.range n).flatMap f).map G).sum = ∑ p ∈ range n, ((f p).map G).sum := by
    intro n f
    induction n with
    | zero => simp
    | succ n ih =>
      rw [List.range_succ, List.flatMap_append, List.map_append, List.sum_append, ih, sum_range_succ]
      simp
  rw [e, e] at h
  rw [h]
  apply sum_congr rfl
  intro i _
  simp

theorem inv_smul_mulVec (μ : ℝ) (hμ : 0 < μ) (f : V) : μ • ((μ • (1 : M3 ℝ))⁻¹ *ᵥ f) = f := by
  have h : (μ • (1 : M3 ℝ)) * (μ⁻¹ • (1 : M3 ℝ)) = 1 := by
    rw [smul_mul_smul_comm, mul_inv_cancel₀ hμ.ne', one_smul, one_mul]
  rw [Matrix.inv_eq_right_inv h, Matrix.smul_mulVec, Matrix.one_mulVec, smul_smul, mul_inv_cancel₀ hμ.ne', one_smul]

section
variable {S : System} {m : Motion} {φ : ℕ → ℕ → ℝ} {b : ℝ}

theorem still_of (hc : Calm S b) (t : ℝ) (i : ℕ) : Still (lineEnv S (m.mem t) i) b where
  rho_w := hc.rho_w
  cb := hc.cb
  friction := hc.friction
  fricDamp := hc.fricDamp
  flat := hc.flat
  U _ := hc.U _ _
  Ud _ := hc.Ud _ _

theorem passive_along {L : Line} (h : Passive L) (x y : ℕ → ℝ → V) (t : ℝ) : Passive (along L x y t) :=
  ⟨h.N, h.smooth, h.l, h.V, h.d, h.A, h.rho, h.Can, h.Cdn, h.Cdt, h.c, h.damp, h.EI, h.bstiff, h.isPb⟩

theorem end_point (hw : Wired S) {i : ℕ} (hi : i < S.nl) (z : EndPt) : ∃ p < S.np, (i, z) ∈ S.att p := by
  have h : (i, z) ∈ (List.range S.nl).flatMap fun i => [(i, EndPt.BOTTOM), (i, EndPt.TOP)] := by
    rw [List.mem_flatMap]
    refine ⟨i, List.mem_range.2 hi, ?_⟩
    cases z <;> simp
  have := hw.symm.subset h
  rw [List.mem_flatMap] at this
  obtain ⟨p, hp, ha⟩ := this
  exact ⟨p, List.mem_range.1 hp, ha⟩

theorem att_line (hw : Wired S) {p : ℕ} (hp : p < S.np) {a : ℕ × EndPt} (ha : a ∈ S.att p) : a.1 < S.nl := by
  have h : a ∈ (List.range S.np).flatMap S.att := List.mem_flatMap.2 ⟨p, List.mem_range.2 hp, ha⟩
  obtain ⟨i, hi, hm⟩ := List.mem_flatMap.1 (hw.subset h)
  simp only [List.mem_cons, List.not_mem_nil, or_false] at hm
  rcases hm with rfl | rfl <;> exact List.mem_range.1 hi

open Classical in
/-- Power which the forces reported for the points that are not free have. -/
noncomputable def power (S : System) (m : Mem) : ℝ :=
  ∑ p ∈ range S.np, if S.kind p = .FREE then 0 else ((reported S m p).getD 0) ⬝ᵥ (m.point p).rd

/-- The energy does not grow by more than the work done against the reported forces. -/
theorem rate (hc : Calm S b) (hs : Sober S m φ) (hw : Wired S) (hj : Joined S m) (t : ℝ) (ho : Obeys S m φ t) :
    (∀ p < S.np, reported S (m.mem t) p ≠ none) ∧
    ∃ E', HasDerivAt (fun t => energy S φ b (m.mem t)) E' t ∧ E' ≤ -power S (m.mem t) := by
  -- accelerations of the points
  have hpa : ∀ p < S.np, HasDerivAt (m.py p) (deriv (m.py p) t) t := by
    intro p hp
    by_cases hk : S.kind p = .FREE
    · obtain ⟨k, -, h⟩ := ho.free p hp hk
      exact h.differentiableAt.hasDerivAt
    · have : m.py p = fun _ => m.py p 0 := funext fun t => hj.led p hp hk t 0
      rw [this]
      exact (differentiableAt_const _).hasDerivAt
  -- and of the nodes
  have hna : ∀ i < S.nl, ∀ j ≤ (m.line i).N, HasDerivAt (m.y i j) (deriv (m.y i j) t) t := by
    intro i hi j hjN
    by_cases h0 : j = 0
    · obtain ⟨p, hp, ha⟩ := end_point hw hi .BOTTOM
      have := (hj.ends p hp _ ha).2
      rw [h0]
      show HasDerivAt (m.y i (endNode (m.line i) .BOTTOM)) (deriv (m.y i (endNode (m.line i) .BOTTOM)) t) t
      rw [this]
      exact hpa p hp
    · by_cases hN : j = (m.line i).N
      · obtain ⟨p, hp, ha⟩ := end_point hw hi .TOP
        have := (hj.ends p hp _ ha).2
        rw [hN]
        show HasDerivAt (m.y i (endNode (m.line i) .TOP)) (deriv (m.y i (endNode (m.line i) .TOP)) t) t
        rw [this]
        exact hpa p hp
      · obtain ⟨k, -, h⟩ := ho.inner i hi j (by omega) (by omega)
        exact h.differentiableAt.hasDerivAt
  -- forces on the nodes
  have hf : ∀ i, ∃ f : ℕ → V, i < S.nl → (∀ j ≤ (m.line i).N,
      Fnet ((m.mem t).line i) (lineEnv S (m.mem t) i) j = some (f j)) ∧
      ∑ j ∈ range ((m.line i).N + 1), f j ⬝ᵥ m.y i j t ≤
        ∑ j ∈ range ((m.line i).N + 1), (-(weight (m.line i) S.sea (φ i) j * m.y i j t 2) +
          S.sea.kb * sole (m.line i) j * max (b - m.x i j t 2) 0 * m.y i j t 2) -
        ∑ j ∈ range (m.line i).N, pull (m.line i) (max (lstr ((m.mem t).line i) j / (m.line i).l j - 1) 0) *
          ldstr ((m.mem t).line i) j := by
    intro i
    by_cases hi : i < S.nl
    · obtain ⟨f, h1, h2⟩ := line_power (passive_along (hs.line i hi) (m.x i) (m.y i) t) (still_of (m := m) hc t i) (φ i)
        (ho.sub i hi)
      exact ⟨f, fun _ => ⟨h1, h2⟩⟩
    · exact ⟨fun _ => 0, fun h => absurd h hi⟩
  choose f hf using hf
  let μ : ℕ → ℕ → ℝ := fun i j => mass (m.line i) S.sea (φ i) j
  let acc : ℕ → ℕ → V := fun i j => deriv (m.y i j) t
  let G : ℕ × EndPt → ℝ := fun a => (μ a.1 (endNode (m.line a.1) a.2) • acc a.1 (endNode (m.line a.1) a.2) -
    f a.1 (endNode (m.line a.1) a.2)) ⬝ᵥ m.y a.1 (endNode (m.line a.1) a.2) t
  have hM : ∀ i < S.nl, ∀ j ≤ (m.line i).N, M ((m.mem t).line i) (lineEnv S (m.mem t) i) j = μ i j • (1 : M3 ℝ) := by
    intro i hi j hjN
    exact M_mass (passive_along (hs.line i hi) _ _ t) (φ i) (ho.sub i hi) (hs.iso i hi) j hjN
  have hμ : ∀ i < S.nl, ∀ j, 0 < μ i j := fun i hi j => mass_pos (hs.line i hi) hc.rho_w (φ i) (hs.sub i) j
  -- lines
  have hline : ∀ i < S.nl, ∃ D, HasDerivAt (fun t => lineEnergy ((m.mem t).line i) S.sea (φ i) b) D t ∧
      D ≤ G (i, .BOTTOM) + G (i, .TOP) := by
    intro i hi
    refine ⟨_, line_deriv (m.line i) (m.x i) (m.y i) t S.sea (φ i) b (acc i) (hs.line i hi).smooth
      (fun j _ => (hs.line i hi).l j) (ho.node i hi) (hna i hi) (ho.long i hi), ?_⟩
    have h2 := (hf i hi).2
    have hin : ∑ j ∈ range ((m.line i).N + 1), (μ i j • acc i j - f i j) ⬝ᵥ m.y i j t =
        G (i, .BOTTOM) + G (i, .TOP) := by
      obtain ⟨n, hn⟩ : ∃ n, (m.line i).N = n + 1 := ⟨(m.line i).N - 1, by have := (hs.line i hi).N; omega⟩
      rw [hn, sum_range_succ, sum_range_succ']
      have h0 : ∑ j ∈ range n, (μ i (j + 1) • acc i (j + 1) - f i (j + 1)) ⬝ᵥ m.y i (j + 1) t = 0 := by
        apply sum_eq_zero
        intro j hjn
        have hjn' := mem_range.1 hjn
        obtain ⟨k, hk, hd⟩ := ho.inner i hi (j + 1) (by omega) (by omega)
        have hk2 : acc i (j + 1) = k.2 := hd.deriv
        unfold nodeRate at hk
        rw [(hf i hi).1 (j + 1) (by omega), Option.map_some, hM i hi (j + 1) (by omega)] at hk
        have hk3 := Option.some.inj hk
        rw [hk2, ← hk3]
        dsimp only
        rw [inv_smul_mulVec _ (hμ i hi _), sub_self, zero_dotProduct]
      rw [h0, zero_add]
      show _ = (μ i 0 • acc i 0 - f i 0) ⬝ᵥ m.y i 0 t +
        (μ i (m.line i).N • acc i (m.line i).N - f i (m.line i).N) ⬝ᵥ m.y i (m.line i).N t
      rw [hn]
    rw [← hin]
    simp only [sub_dotProduct, smul_dotProduct, smul_eq_mul, sum_sub_distrib, sum_add_distrib, sum_neg_distrib] at h2 ⊢
    show _ + ∑ j ∈ range (m.line i).N, pull (m.line i) (max (lstr ((m.mem t).line i) j / (m.line i).l j - 1) 0) *
          ldstr ((m.mem t).line i) j ≤ _
    linarith
  -- points
  have hpoint : ∀ p < S.np, ∃ D, HasDerivAt (fun t => pointEnergy ((m.mem t).point p) S.sea) D t ∧
      reported S (m.mem t) p ≠ none ∧
      D ≤ -((S.att p).map G).sum -
        if S.kind p = .FREE then 0 else ((reported S (m.mem t) p).getD 0) ⬝ᵥ ((m.mem t).point p).rd := by
    intro p hp
    let P := m.point p
    let ν := P.pointM + P.pointV * S.sea.rho_w * P.pointCa
    have hd : HasDerivAt (fun t => pointEnergy ((m.mem t).point p) S.sea)
        (ν * (deriv (m.py p) t ⬝ᵥ m.py p t) + S.sea.g * (P.pointM - P.pointV * S.sea.rho_w) * m.py p t 2 -
          P.pointF ⬝ᵥ m.py p t) t := by
      have h1 := (deriv_dot (hpa p hp) (hpa p hp)).const_mul (1 / 2 * ν)
      have h2 := (hasDerivAt_pi.1 (ho.point p hp) 2).const_mul (S.sea.g * (P.pointM - P.pointV * S.sea.rho_w))
      have h3 := deriv_dot (hasDerivAt_const t P.pointF) (ho.point p hp)
      refine ((h1.add h2).sub h3).congr_deriv ?_
      rw [dotProduct_comm (m.py p t), zero_dotProduct]
      ring
    have hG : ∀ a ∈ S.att p, G a = (μ a.1 (endNode (m.line a.1) a.2) • deriv (m.py p) t -
        f a.1 (endNode (m.line a.1) a.2)) ⬝ᵥ m.py p t := by
      intro a ha
      show (_ • deriv (m.y a.1 (endNode (m.line a.1) a.2)) t - _) ⬝ᵥ m.y a.1 (endNode (m.line a.1) a.2) t = _
      rw [(hj.ends p hp a ha).2]
    let w : ℕ × EndPt → ℝ := fun a => μ a.1 (endNode (m.line a.1) a.2)
    let g : ℕ × EndPt → V := fun a => f a.1 (endNode (m.line a.1) a.2)
    have hst : ∀ a ∈ S.att p, getEndStuff ((m.mem t).line a.1) (lineEnv S (m.mem t) a.1) a.2 =
        some (g a, 0, w a • (1 : M3 ℝ)) := by
      intro a ha
      have hl := att_line hw hp ha
      obtain ⟨i, z⟩ := a
      have h1 := (hf i hl).1 (endNode (m.line i) z) (by cases z <;> simp [endNode])
      have h2 := hM i hl (endNode (m.line i) z) (by cases z <;> simp [endNode])
      cases z
      · show (Fnet ((m.mem t).line i) (lineEnv S (m.mem t) i) (m.line i).N >>= fun f =>
          pure (f, 0, M ((m.mem t).line i) (lineEnv S (m.mem t) i) (m.line i).N)) = _
        change Fnet _ _ (m.line i).N = _ at h1
        change M _ _ (m.line i).N = _ at h2
        rw [h1, h2]
        rfl
      · show (Fnet ((m.mem t).line i) (lineEnv S (m.mem t) i) 0 >>= fun f =>
          pure (f, 0, M ((m.mem t).line i) (lineEnv S (m.mem t) i) 0)) = _
        change Fnet _ _ 0 = _ at h1
        change M _ _ 0 = _ at h2
        rw [h1, h2]
        rfl
    have hmap : ∀ l : List (ℕ × EndPt), (∀ a ∈ l, a ∈ S.att p) →
        (l.mapM fun a => getEndStuff ((m.mem t).line a.1) (lineEnv S (m.mem t) a.1) a.2) =
          some (l.map fun a => (g a, 0, w a • (1 : M3 ℝ))) := by
      intro l hl
      induction l with
      | nil => rfl
      | cons a l ih =>
        rw [List.mapM_cons, hst a (hl a List.mem_cons_self), ih fun a ha => hl a (List.mem_cons_of_mem _ ha)]
        rfl
    have hdrag := C32_point_drag S.sea.rho_w P.pointCdA hc.rho_w (hs.CdA p hp) (-m.py p t)
    rw [dotProduct_neg] at hdrag
    have e4 : ((S.att p).map G).sum = ((S.att p).map w).sum * (deriv (m.py p) t ⬝ᵥ m.py p t) -
        ((S.att p).map g).sum ⬝ᵥ m.py p t := by
      have : ∀ l : List (ℕ × EndPt), (∀ a ∈ l, a ∈ S.att p) → (l.map G).sum =
          (l.map w).sum * (deriv (m.py p) t ⬝ᵥ m.py p t) - (l.map g).sum ⬝ᵥ m.py p t := by
        intro l hl
        induction l with
        | nil => simp
        | cons a l ih =>
          rw [List.map_cons, List.sum_cons, ih fun a ha => hl a (List.mem_cons_of_mem _ ha),
            hG a (hl a List.mem_cons_self), sub_dotProduct, smul_dotProduct, smul_eq_mul]
          simp only [List.map_cons, List.sum_cons, add_dotProduct]
          ring
      exact this _ fun _ h => h
    have e5 : ∀ z : ℝ, (![0, 0, z] : V) ⬝ᵥ m.py p t = z * m.py p t 2 := by
      intro z; simp [dotProduct, Fin.sum_univ_three]
    have hdrag' : quadDrag S.sea.rho_w (m.point p).pointCdA (-m.py p t) ⬝ᵥ m.py p t ≤ 0 := neg_nonneg.1 hdrag
    have e2 : (List.map ((fun a : V × V × M3 ℝ => a.1) ∘ fun a => (g a, 0, w a • (1 : M3 ℝ))) (S.att p)).sum =
        ((S.att p).map g).sum := rfl
    have hrep : reported S (m.mem t) p = some (((S.att p).map g).sum +
        (P.pointF + ![0, 0, -(P.pointM * S.sea.g)] + ![0, 0, S.sea.rho_w * S.sea.g * P.pointV]
          + quadDrag S.sea.rho_w P.pointCdA ((S.kin t (m.px p t)).2.1 - m.py p t))) := by
      unfold reported loaded
      rw [hmap _ fun _ h => h, Option.map_some, Option.map_some, C40_net_force]
      simp only [List.map_map]
      rw [e2]
      rfl
    refine ⟨_, hd, by rw [hrep]; exact Option.some_ne_none _, ?_⟩
    by_cases hk : S.kind p = .FREE
    · rw [if_pos hk]
      obtain ⟨k, hk, hdk⟩ := ho.free p hp hk
      unfold pointRate loaded at hk
      rw [hmap _ fun _ h => h, Option.map_some, Option.map_some] at hk
      have hk2 := congrArg Prod.snd (Option.some.inj hk)
      rw [C40_mass, C40_net_force] at hk2
      simp only [List.map_map] at hk2
      have e1 : (List.map ((fun a : V × V × M3 ℝ => a.2.2) ∘ fun a => (g a, 0, w a • (1 : M3 ℝ))) (S.att p)).sum =
          ((S.att p).map w).sum • (1 : M3 ℝ) := by
        generalize S.att p = l
        induction l with
        | nil => simp
        | cons a l ih => rw [List.map_cons, List.sum_cons, ih, List.map_cons, List.sum_cons, add_smul]; rfl
      rw [e1, e2, ← add_smul] at hk2
      have hwn : 0 ≤ ((S.att p).map w).sum := by
        apply List.sum_nonneg
        intro y hy
        obtain ⟨a, ha, rfl⟩ := List.mem_map.1 hy
        exact (hμ _ (att_line hw hp ha) _).le
      have hν : 0 ≤ P.pointV * S.sea.rho_w * P.pointCa := mul_nonneg (mul_nonneg (hs.V p hp) hc.rho_w) (hs.Ca p hp)
      have htot : 0 < ((S.att p).map w).sum + ν := by
        show 0 < _ + (P.pointM + P.pointV * S.sea.rho_w * P.pointCa)
        have hMp : 0 ≤ P.pointM := hs.M p hp
        rcases hs.heavy p hp ‹_› with h | h
        · have : 0 < P.pointM := h
          linarith
        · obtain ⟨a, l, hal⟩ := List.exists_cons_of_ne_nil h
          have ha : 0 < w a := hμ _ (att_line hw hp (by rw [hal]; exact List.mem_cons_self)) _
          have hl : 0 ≤ (l.map w).sum := by
            apply List.sum_nonneg
            intro y hy
            obtain ⟨a', ha', rfl⟩ := List.mem_map.1 hy
            exact (hμ _ (att_line hw hp (by rw [hal]; exact List.mem_cons_of_mem _ ha')) _).le
          rw [hal, List.map_cons, List.sum_cons]
          linarith
      have e3 : P.pointM + P.pointCa * (S.sea.rho_w * P.pointV) = ν := by
        show _ = P.pointM + P.pointV * S.sea.rho_w * P.pointCa
        ring
      have hnewton : (((S.att p).map w).sum + ν) • deriv (m.py p) t = ((S.att p).map g).sum +
          (P.pointF + ![0, 0, -(P.pointM * S.sea.g)] + ![0, 0, S.sea.rho_w * S.sea.g * P.pointV]
            + quadDrag S.sea.rho_w P.pointCdA ((S.kin t (m.px p t)).2.1 - m.py p t)) := by
        rw [hdk.deriv, ← hk2]
        show _ • (((((S.att p).map w).sum + (P.pointM + P.pointCa * (S.sea.rho_w * P.pointV))) • (1 : M3 ℝ))⁻¹ *ᵥ _) = _
        rw [e3]
        exact inv_smul_mulVec _ htot _
      have hpow := congrArg (· ⬝ᵥ m.py p t) hnewton
      rw [hc.U, zero_sub] at hpow
      rw [e4]
      simp only [smul_dotProduct, add_dotProduct, smul_eq_mul] at hpow
      rw [e5, e5] at hpow
      show ν * _ + S.sea.g * ((m.point p).pointM - (m.point p).pointV * S.sea.rho_w) * _ - (m.point p).pointF ⬝ᵥ _ ≤ _
      linarith
    · rw [if_neg hk, hrep, e4]
      have h0 : deriv (m.py p) t = 0 := by
        have : m.py p = fun _ => m.py p 0 := funext fun t => hj.led p hp hk t 0
        rw [this, deriv_const]
      rw [h0, zero_dotProduct, hc.U, zero_sub]
      show _ ≤ _ - _ ⬝ᵥ m.py p t
      dsimp only [Option.getD]
      simp only [add_dotProduct]
      rw [e5, e5]
      show ν * _ + S.sea.g * ((m.point p).pointM - (m.point p).pointV * S.sea.rho_w) * _ - (m.point p).pointF ⬝ᵥ _ ≤ _
      linarith
  choose! DL hDL hDL' using hline
  choose! DP hDP hrep hDP' using hpoint
  refine ⟨hrep, ∑ i ∈ range S.nl, DL i + ∑ p ∈ range S.np, DP p, ?_, ?_⟩
  · unfold energy
    exact (HasDerivAt.fun_sum fun i hi => hDL i (mem_range.1 hi)).add
      (HasDerivAt.fun_sum fun p hp => hDP p (mem_range.1 hp))
  · have h1 := sum_le_sum fun i hi => hDL' i (mem_range.1 hi)
    have h2 := sum_le_sum fun p hp => hDP' p (mem_range.1 hp)
    rw [sum_ends S hw G] at h1
    rw [sum_sub_distrib, sum_neg_distrib] at h2
    unfold power
    linarith

/-! ## Continuity -/

theorem dot_cont {x y : ℝ → V} {A : Set ℝ} (hx : ContinuousOn x A) (hy : ContinuousOn y A) :
    ContinuousOn (fun t => x t ⬝ᵥ y t) A := by
  simp only [dotProduct, Fin.sum_univ_three]
  have h : ∀ k, ContinuousOn (fun t => x t k * y t k) A := fun k =>
    (continuousOn_pi.1 hx k).mul (continuousOn_pi.1 hy k)
  exact ((h 0).add (h 1)).add (h 2)

theorem work_cont (f : ℝ → ℝ) (hf : Continuous f) (a : ℝ) {x : ℝ → ℝ} {A : Set ℝ} (hx : ContinuousOn x A) :
    ContinuousOn (fun t => ∫ s in a..(x t), f s) A := by
  have h : Continuous fun u => ∫ s in a..u, f s :=
    continuous_iff_continuousAt.2 fun u => (deriv_work f hf a (hasDerivAt_id u)).continuousAt
  exact h.comp_continuousOn hx

/-- The motion has no jumps. -/
structure Unbroken (S : System) (m : Motion) (A : Set ℝ) : Prop where
  x : ∀ i < S.nl, ∀ j ≤ (m.line i).N, ContinuousOn (m.x i j) A
  y : ∀ i < S.nl, ∀ j ≤ (m.line i).N, ContinuousOn (m.y i j) A
  px : ∀ p < S.np, ContinuousOn (m.px p) A
  py : ∀ p < S.np, ContinuousOn (m.py p) A

theorem energy_cont (hs : Sober S m φ) {A : Set ℝ} (h : Unbroken S m A) :
    ContinuousOn (fun t => energy S φ b (m.mem t)) A := by
  unfold energy
  apply ContinuousOn.add
  · apply continuousOn_finsetSum
    intro i hi
    have hi' := mem_range.1 hi
    unfold lineEnergy
    apply ContinuousOn.add
    · show ContinuousOn (fun t => ∑ j ∈ range ((m.line i).N + 1), _) A
      apply continuousOn_finsetSum
      intro j hj
      have hj' : j ≤ (m.line i).N := by have := mem_range.1 hj; omega
      have hz := continuousOn_pi.1 (h.x i hi' j hj') 2
      have h1 := (continuousOn_const (c := 1 / 2 * mass (m.line i) S.sea (φ i) j)).mul (dot_cont (h.y i hi' j hj') (h.y i hi' j hj'))
      have h2 := (continuousOn_const (c := weight (m.line i) S.sea (φ i) j)).mul hz
      have h3 := (continuousOn_const (c := S.sea.kb * sole (m.line i) j)).mul
        (work_cont (fun s => max s 0) (continuous_id.max continuous_const) 0 ((continuousOn_const (c := b)).sub hz))
      exact (h1.add h2).add h3
    · show ContinuousOn (fun t => ∑ j ∈ range (m.line i).N, _) A
      apply continuousOn_finsetSum
      intro j hj
      have hj' := mem_range.1 hj
      have hu := (h.x i hi' (j + 1) hj').sub (h.x i hi' j hj'.le)
      have hl : ContinuousOn (fun t => lstr ((m.mem t).line i) j) A :=
        Real.continuous_sqrt.comp_continuousOn (dot_cont hu hu)
      exact work_cont (fun s => pull (m.line i) (max (s / (m.line i).l j - 1) 0))
        ((pull_continuous _ (hs.line i hi').smooth).comp
          (((continuous_id.div_const _).sub continuous_const).max continuous_const)) _ hl
  · apply continuousOn_finsetSum
    intro p hp
    have hp' := mem_range.1 hp
    have hv := h.py p hp'
    have hz := h.px p hp'
    let P := m.point p
    have h1 := (continuousOn_const (c := 1 / 2 * (P.pointM + P.pointV * S.sea.rho_w * P.pointCa))).mul (dot_cont hv hv)
    have h2 := (continuousOn_const (c := S.sea.g * (P.pointM - P.pointV * S.sea.rho_w))).mul (continuousOn_pi.1 hz 2)
    have h3 := dot_cont (continuousOn_const (c := P.pointF)) hz
    exact (h1.add h2).sub h3

/-- A function without jumps that does not grow except possibly at finitely many instants does not grow. -/
theorem falls (f : ℝ → ℝ) (s : Finset ℝ) : ∀ a c : ℝ, a ≤ c → ContinuousOn f (Set.Icc a c) →
    (∀ t ∈ Set.Ioo a c, t ∉ s → ∃ E', HasDerivAt f E' t ∧ E' ≤ 0) → f c ≤ f a := by
  induction s using Finset.induction_on with
  | empty =>
    intro a c hac hf hd
    refine antitoneOn_of_deriv_nonpos (convex_Icc a c) hf ?_ ?_ (Set.left_mem_Icc.2 hac) (Set.right_mem_Icc.2 hac) hac
    · intro t ht
      rw [interior_Icc] at ht
      obtain ⟨E', h, -⟩ := hd t ht (notMem_empty t)
      exact h.differentiableAt.differentiableWithinAt
    · intro t ht
      rw [interior_Icc] at ht
      obtain ⟨E', h, h0⟩ := hd t ht (notMem_empty t)
      rw [h.deriv]
      exact h0
  | insert u s hu ih =>
    intro a c hac hf hd
    by_cases h : u ∈ Set.Ioo a c
    · have h1 := ih a u h.1.le (hf.mono (Set.Icc_subset_Icc_right h.2.le)) (by
        intro t ht hts
        refine hd t ⟨ht.1, ht.2.trans h.2⟩ ?_
        rw [mem_insert, not_or]
        exact ⟨ht.2.ne, hts⟩)
      have h2 := ih u c h.2.le (hf.mono (Set.Icc_subset_Icc_left h.1.le)) (by
        intro t ht hts
        refine hd t ⟨h.1.trans ht.1, ht.2⟩ ?_
        rw [mem_insert, not_or]
        exact ⟨ht.1.ne', hts⟩)
      exact h2.trans h1
    · apply ih a c hac hf
      intro t ht hts
      refine hd t ht ?_
      rw [mem_insert, not_or]
      exact ⟨fun e => h (e ▸ ht), hts⟩

/-! ## C102 -/

/-- C102: lines and points in still water over a flat bottom.  `W` is the work of the forces which MoorDyn reports for
the points that are not free, so that moving those points takes `-W`.  The energy of the system does not grow by more than
that.  The motion may break the rates at finitely many instants (where a node lands on the bottom or a line goes slack a rate
need not exist). -/
theorem C102_work_partial (hc : Calm S b) (hs : Sober S m φ) (hw : Wired S) (hj : Joined S m) (a c : ℝ) (s : Finset ℝ)
    (hu : Unbroken S m (Set.Icc a c)) (ho : ∀ t ∈ Set.Ioo a c, t ∉ s → Obeys S m φ t) (W : ℝ → ℝ)
    (hW : ContinuousOn W (Set.Icc a c)) (hW' : ∀ t ∈ Set.Ioo a c, t ∉ s → HasDerivAt W (power S (m.mem t)) t) :
    ∀ t ∈ Set.Icc a c, ∀ t' ∈ Set.Icc a c, t ≤ t' →
      energy S φ b (m.mem t') - energy S φ b (m.mem t) ≤ -(W t' - W t) := by
  intro t ht t' ht' h
  have := falls (fun t => energy S φ b (m.mem t) + W t) s t t' h
    (((energy_cont hs hu).add hW).mono (Set.Icc_subset_Icc ht.1 ht'.2)) (by
      intro u hu hus
      have hu' : u ∈ Set.Ioo a c := ⟨lt_of_le_of_lt ht.1 hu.1, lt_of_lt_of_le hu.2 ht'.2⟩
      obtain ⟨E', h1, h2⟩ := (rate hc hs hw hj u (ho u hu' hus)).2
      exact ⟨_, h1.add (hW' u hu' hus), by linarith⟩)
  linarith

/-- C102: with the points that are not free held in place, the system never gains energy. -/
theorem C102_energy_partial (hc : Calm S b) (hs : Sober S m φ) (hw : Wired S) (hj : Joined S m) (a c : ℝ) (s : Finset ℝ)
    (hu : Unbroken S m (Set.Icc a c)) (ho : ∀ t ∈ Set.Ioo a c, t ∉ s → Obeys S m φ t)
    (held : ∀ p < S.np, S.kind p ≠ .FREE → ∀ t, m.py p t = 0) :
    AntitoneOn (fun t => energy S φ b (m.mem t)) (Set.Icc a c) := by
  intro t ht t' ht' h
  have := C102_work_partial hc hs hw hj a c s hu ho (fun _ => 0) continuousOn_const (by
    intro u _ _
    have : power S (m.mem u) = 0 := by
      apply sum_eq_zero
      intro p hp
      split
      · rfl
      · rename_i hk
        show _ ⬝ᵥ m.py p u = 0
        rw [held p (mem_range.1 hp) hk, dotProduct_zero]
    rw [this]
    exact hasDerivAt_const _ _) t ht t' ht' h
  dsimp only
  linarith

/-- C102: the forces which are reported exist (none is NaN) whenever the motion obeys the rates. -/
theorem C102_reported (hc : Calm S b) (hs : Sober S m φ) (hw : Wired S) (hj : Joined S m) (t : ℝ) (ho : Obeys S m φ t) :
    ∀ p < S.np, reported S (m.mem t) p ≠ none := (rate hc hs hw hj t ho).1

/-- The elastic energy of a segment of constant stiffness: half of the stiffness times the square of the extension,
nothing if slack. -/
theorem C102_elastic (L : Line) (j : ℕ) (hs : L.stiff = none) (hl : 0 < L.l j) :
    stretch L j = 1 / 2 * (L.E * L.A / L.l j) * max (lstr L j - L.l j) 0 ^ 2 := by
  unfold stretch pull
  rw [hs]
  dsimp only
  rcases le_total (lstr L j) (L.l j) with h | h
  · rw [max_eq_right (by linarith), intervalIntegral.integral_congr (g := fun _ => 0)]
    · simp
    · intro u hu
      rw [Set.uIcc_of_ge h] at hu
      have : u / L.l j - 1 ≤ 0 := by rw [sub_nonpos, div_le_one hl]; exact hu.2
      simp only [max_eq_right this]
      ring
  · rw [max_eq_left (by linarith)]
    have h1 : ∀ u ∈ Set.uIcc (L.l j) (lstr L j),
        HasDerivAt (fun u => 1 / 2 * (L.E * L.A / L.l j) * (u - L.l j) ^ 2) (L.E * max (u / L.l j - 1) 0 * L.A) u := by
      intro u hu
      rw [Set.uIcc_of_le h] at hu
      have : 0 ≤ u / L.l j - 1 := by rw [sub_nonneg, one_le_div hl]; exact hu.1
      rw [max_eq_left this]
      refine ((((hasDerivAt_id u).sub_const _).pow 2).const_mul _).congr_deriv ?_
      simp
      field_simp
    rw [intervalIntegral.integral_eq_sub_of_hasDerivAt h1]
    · simp
    · apply Continuous.intervalIntegrable
      fun_prop

/-- The energy of the bottom under a node: half of the stiffness times the square of the depth. -/
theorem C102_bottom (L : Line) (e : Env) (b : ℝ) (i : ℕ) :
    soil L e b i = 1 / 2 * (e.kb * sole L i) * max (b - L.r i 2) 0 ^ 2 := by
  unfold soil
  rcases le_total (b - L.r i 2) 0 with h | h
  · rw [max_eq_right h, intervalIntegral.integral_congr (g := fun _ => 0)]
    · simp
    · intro u hu
      rw [Set.uIcc_of_ge h] at hu
      exact max_eq_right hu.2
  · rw [max_eq_left h]
    have h1 : ∀ u ∈ Set.uIcc 0 (b - L.r i 2), HasDerivAt (fun u : ℝ => 1 / 2 * u ^ 2) (max u 0) u := by
      intro u hu
      rw [Set.uIcc_of_le h] at hu
      rw [max_eq_left hu.1]
      refine (((hasDerivAt_id u).pow 2).const_mul _).congr_deriv ?_
      simp
    rw [intervalIntegral.integral_eq_sub_of_hasDerivAt h1]
    · ring
    · exact (continuous_id.max continuous_const).intervalIntegrable _ _

end

/-! ## Example: a slack chain falls in air from a held point -/

/-- One segment of 10 m between two nodes, of 1 m diameter. -/
noncomputable def chain : Line where
  N := 1
  d := 1
  A := Real.pi / 4
  rho := 8
  E := 100
  c := 0
  EI := 0
  Can := 1
  Cat := 0
  Cdn := 1
  Cdt := 1
  stiff := none
  bstiff := none
  damp := none
  dampNeg := false
  l _ := 10
  V _ := 10 * (Real.pi / 4)
  r _ := 0
  rd _ := 0
  endTypeA := .PINNED
  endTypeB := .PINNED
  qA := 0
  qB := 0
  pin _ := 0
  isPb := false

/-- A clump of 5 kg without drag. -/
noncomputable def clump : Point where
  pointM := 5
  pointV := 0
  pointF := 0
  pointCdA := 0
  pointCa := 0
  r := 0
  rd := 0
  U := 0
  attached := []

/-- The first point is fixed, the second free; the water is 50 m below, the bottom 100 m. -/
noncomputable def drop : System where
  nl := 1
  np := 2
  kind p := if p = 0 then .FIXED else .FREE
  att p := if p = 0 then [(0, .BOTTOM)] else if p = 1 then [(0, .TOP)] else []
  sea := { rho_w := 1000, g := 10, kb := 1000, cb := 1, frictionCoefficient := 1, fricDamp := 1, statDynFricScale := 1,
           waterDepth := fun _ _ => -100, zeta := fun _ => -50, U := fun _ => 0, Ud := fun _ => 0, pdyn := fun _ => 0 }
  kin _ _ := (-50, 0, 0, 0)

/-- The free end falls 5 t² metres. -/
noncomputable def falling : Motion where
  line _ := chain
  point _ := clump
  x _ j t := if j = 0 then 0 else ![1, 0, -(5 * t ^ 2)]
  y _ j t := if j = 0 then 0 else ![0, 0, -(10 * t)]
  px p t := if p = 0 then 0 else ![1, 0, -(5 * t ^ 2)]
  py p t := if p = 0 then 0 else ![0, 0, -(10 * t)]

theorem chain_passive : Passive chain := by
  have := Real.pi_pos
  constructor <;> simp [chain, Smooth] <;> positivity

theorem drop_calm : Calm drop (-100) := by
  constructor <;> simp [drop]

theorem drop_wired : Wired drop := by
  unfold Wired drop
  simp [List.range_succ]

theorem drop_sober : Sober drop falling fun _ _ => 0 where
  line _ _ := chain_passive
  sub _ _ := le_rfl
  iso _ _ := Or.inr fun _ _ => rfl
  M _ _ := by simp [falling, clump]
  V _ _ := by simp [falling, clump]
  Ca _ _ := by simp [falling, clump]
  CdA _ _ := by simp [falling, clump]
  heavy _ _ _ := Or.inl (by simp [falling, clump])

theorem drop_held : ∀ p < drop.np, drop.kind p ≠ .FREE → ∀ t, falling.py p t = 0 := by
  intro p hp hk t
  have : p = 0 := by
    by_contra h
    exact hk (by simp [drop, h])
  simp [falling, this]

theorem drop_joined : Joined drop falling := by
  constructor
  · intro p hp a ha
    have : p = 0 ∨ p = 1 := by change p < 2 at hp; omega
    rcases this with rfl | rfl
    · simp [drop] at ha
      subst ha
      simp [falling, endNode]
    · simp [drop] at ha
      subst ha
      simp [falling, endNode, chain]
  · intro p hp hk t t'
    rw [drop_held p hp hk, drop_held p hp hk]

theorem fall_pos (t : ℝ) : HasDerivAt (fun t : ℝ => (![1, 0, -(5 * t ^ 2)] : V)) ![0, 0, -(10 * t)] t := by
  rw [hasDerivAt_pi]
  intro k
  fin_cases k
  · simpa using hasDerivAt_const t (1 : ℝ)
  · simpa using hasDerivAt_const t (0 : ℝ)
  · have := (((hasDerivAt_id t).pow 2).const_mul 5).neg
    simp at this
    refine this.congr_deriv ?_
    simp
    ring

theorem fall_vel (t : ℝ) : HasDerivAt (fun t : ℝ => (![0, 0, -(10 * t)] : V)) ![0, 0, -10] t := by
  rw [hasDerivAt_pi]
  intro k
  fin_cases k
  · simpa using hasDerivAt_const t (0 : ℝ)
  · simpa using hasDerivAt_const t (0 : ℝ)
  · have := ((hasDerivAt_id t).const_mul 10).neg
    simp at this
    exact this.congr_deriv (by simp)

theorem fall_lstr (t : ℝ) : lstr ((falling.mem t).line 0) 0 = Real.sqrt (1 + 25 * t ^ 4) := by
  show Real.sqrt _ = _
  congr 1
  simp [Motion.mem, falling, along, dotProduct, Fin.sum_univ_three]
  ring

theorem fall_F (t : ℝ) (h0 : 0 < t) (h1 : t < 1) : F ((falling.mem t).line 0) (lineEnv drop (falling.mem t) 0) 0 = 0 := by
  apply C34_above
  · simp [lineEnv, envOf, drop, Motion.mem, falling, along]
    norm_num
  · simp [lineEnv, envOf, drop, Motion.mem, falling, along]
    nlinarith

theorem fall_force (t : ℝ) (h0 : 0 < t) (h1 : t < 1) :
    Fnet ((falling.mem t).line 0) (lineEnv drop (falling.mem t) 0) 1 = some ![0, 0, -(100 * Real.pi)] := by
  have hF := fall_F t h0 h1
  have hT : T ((falling.mem t).line 0) 0 = 0 := by
    unfold T
    dsimp only
    rw [if_neg]
    rw [fall_lstr]
    show ¬ Real.sqrt (1 + 25 * t ^ 4) / 10 > 1
    rw [not_lt, div_le_one (by norm_num)]
    apply Real.sqrt_le_iff.2 ⟨by norm_num, ?_⟩
    have : t ^ 4 ≤ 1 := pow_le_one₀ h0.le h1.le
    linarith
  have htd : Td ((falling.mem t).line 0) 0 = some 0 := by
    unfold Td getNonlinearC
    simp [Motion.mem, falling, along, chain]
  have hW : W ((falling.mem t).line 0) (lineEnv drop (falling.mem t) 0) 1 = ![0, 0, -(100 * Real.pi)] := by
    unfold W adjacent
    simp only [show ((falling.mem t).line 0).N = 1 from rfl, one_ne_zero, if_false, if_true, Nat.sub_self, hF]
    simp [Motion.mem, falling, along, chain, lineEnv, envOf, drop]
    ring
  have hB : B ((falling.mem t).line 0) (lineEnv drop (falling.mem t) 0) 1 = 0 := by
    apply C33_no_contact
    simp [Motion.mem, falling, along, chain, lineEnv, envOf, drop]
    nlinarith
  have hadj : adjacent ((falling.mem t).line 0).N
      (fun j => F ((falling.mem t).line 0) (lineEnv drop (falling.mem t) 0) j * ((falling.mem t).line 0).l j) 1 = 0 := by
    unfold adjacent
    simp only [show ((falling.mem t).line 0).N = 1 from rfl, one_ne_zero, if_false, if_true, Nat.sub_self, hF, zero_mul]
  have hD : Dp ((falling.mem t).line 0) (lineEnv drop (falling.mem t) 0) 1 = 0 := by
    unfold Dp; rw [hadj, mul_zero, zero_smul]
  have hD' : Dq ((falling.mem t).line 0) (lineEnv drop (falling.mem t) 0) 1 = 0 := by
    unfold Dq; rw [hadj, mul_zero, zero_smul]
  have hud : (lineEnv drop (falling.mem t) 0).Ud 1 = 0 := rfl
  have hA : Ap ((falling.mem t).line 0) (lineEnv drop (falling.mem t) 0) 1 = 0 := by
    unfold Ap ap aq; rw [hud]; simp
  have hA' : Aq ((falling.mem t).line 0) (lineEnv drop (falling.mem t) 0) 1 = 0 := by
    unfold Aq aq; rw [hud]; simp
  have hEI : ¬ isEI ((falling.mem t).line 0) := not_isEI (passive_along chain_passive _ _ t)
  have hBs : Bs ((falling.mem t).line 0) 1 = 0 := by
    unfold Bs; rw [if_neg hEI]
  have hPb : Pb ((falling.mem t).line 0) (lineEnv drop (falling.mem t) 0) 1 = 0 := by
    unfold Pb; rw [if_neg]; rintro ⟨h, -⟩; cases h
  have hax : axial ((falling.mem t).line 0) 1 = some 0 := by
    unfold axial
    simp only [show ((falling.mem t).line 0).N = 1 from rfl, one_ne_zero, if_false, if_true, Nat.sub_self, hT, htd]
    simp
  unfold Fnet
  simp only [hax, hW, hB, hD, hD', hA, hA', hBs, hPb, add_zero, zero_add]
  show some (0 + _) = _
  rw [zero_add]

theorem fall_mass (t : ℝ) (h0 : 0 < t) (h1 : t < 1) :
    M ((falling.mem t).line 0) (lineEnv drop (falling.mem t) 0) 1 = (10 * Real.pi) • (1 : M3 ℝ) := by
  have h : M ((falling.mem t).line 0) (lineEnv drop (falling.mem t) 0) 1 =
      mass ((falling.mem t).line 0) (lineEnv drop (falling.mem t) 0) (fun _ => 0) 1 • (1 : M3 ℝ) := by
    refine M_mass (passive_along chain_passive _ _ t) (fun _ => 0) ?_ (Or.inr fun _ _ => rfl) 1 le_rfl
    intro j hj
    change j < 1 at hj
    obtain rfl : j = 0 := by omega
    exact fall_F t h0 h1
  rw [h]
  congr 1
  unfold mass m adjacent
  simp [Motion.mem, along, chain, falling]
  ring

theorem fall_rate (t : ℝ) (h0 : 0 < t) (h1 : t < 1) :
    pointRate drop (falling.mem t) 1 = some (![0, 0, -(10 * t)], ![0, 0, -10]) := by
  have hst : getEndStuff ((falling.mem t).line 0) (lineEnv drop (falling.mem t) 0) .TOP =
      some (![0, 0, -(100 * Real.pi)], 0, (10 * Real.pi) • (1 : M3 ℝ)) := by
    show (Fnet ((falling.mem t).line 0) (lineEnv drop (falling.mem t) 0) 1 >>= fun f =>
      pure (f, 0, M ((falling.mem t).line 0) (lineEnv drop (falling.mem t) 0) 1)) = _
    rw [fall_force t h0 h1, fall_mass t h0 h1]
    rfl
  have hatt : drop.att 1 = [(0, .TOP)] := by simp [drop]
  unfold pointRate loaded
  rw [hatt, List.mapM_cons, hst]
  show some (_, _) = _
  congr 1
  refine Prod.ext (by simp [Motion.mem, falling]) ?_
  dsimp only
  rw [C40_mass, C40_net_force]
  have hμ : 0 < 10 * Real.pi + 5 := by have := Real.pi_pos; positivity
  have e1 : ∀ μ : ℝ, 0 < μ → ∀ f a : V, f = μ • a → (μ • (1 : M3 ℝ))⁻¹ *ᵥ f = a := by
    intro μ hμ f a h
    have := inv_smul_mulVec μ hμ f
    rw [h] at this ⊢
    exact smul_right_injective V hμ.ne' this
  simp only [List.map_cons, List.map_nil, List.sum_cons, List.reverse_nil, List.sum_nil, add_zero, ← add_smul]
  have e2 : 10 * Real.pi + (((falling.mem t).point 1).pointM + ((falling.mem t).point 1).pointCa *
      (drop.sea.rho_w * ((falling.mem t).point 1).pointV)) = 10 * Real.pi + 5 := by
    simp [Motion.mem, falling, clump]
  rw [e2]
  apply e1 _ hμ
  unfold pointLoads quadDrag
  ext k
  fin_cases k <;> simp [Motion.mem, falling, clump, drop]
  ring

theorem fall_obeys (t : ℝ) (h0 : 0 < t) (h1 : t < 1) : Obeys drop falling (fun _ _ => 0) t := by
  constructor
  · intro i hi j hj
    by_cases hj0 : j = 0
    · simp only [falling, hj0, if_true]
      exact hasDerivAt_const t _
    · simp only [falling, if_neg hj0]
      exact fall_pos t
  · intro p hp
    by_cases hj0 : p = 0
    · simp only [falling, hj0, if_true]
      exact hasDerivAt_const t _
    · simp only [falling, if_neg hj0]
      exact fall_pos t
  · intro i hi j hj hj'
    change j < 1 at hj'
    omega
  · intro p hp hk
    have : p = 1 := by
      change p < 2 at hp
      have : p ≠ 0 := by rintro rfl; simp [drop] at hk
      omega
    subst this
    exact ⟨_, fall_rate t h0 h1, by simpa [falling] using fall_vel t⟩
  · intro i hi j hj
    change i < 1 at hi
    change j < 1 at hj
    obtain rfl : i = 0 := by omega
    obtain rfl : j = 0 := by omega
    exact fall_F t h0 h1
  · intro i hi j hj
    change i < 1 at hi
    change j < 1 at hj
    obtain rfl : i = 0 := by omega
    obtain rfl : j = 0 := by omega
    rw [fall_lstr]
    refine lt_of_lt_of_le tol_lt_one (Real.one_le_sqrt.2 ?_)
    have : 0 < t ^ 4 := by positivity
    linarith

example : AntitoneOn (fun t => energy drop (fun _ _ => 0) (-100) (falling.mem t)) (Set.Icc 0 1) := by
  refine C102_energy_partial drop_calm drop_sober drop_wired drop_joined 0 1 ∅ ?_ (fun t ht _ => fall_obeys t ht.1 ht.2)
    drop_held
  have hx : Continuous fun t : ℝ => (![1, 0, -(5 * t ^ 2)] : V) :=
    continuous_iff_continuousAt.2 fun t => (fall_pos t).continuousAt
  have hy : Continuous fun t : ℝ => (![0, 0, -(10 * t)] : V) :=
    continuous_iff_continuousAt.2 fun t => (fall_vel t).continuousAt
  constructor
  all_goals
    intros
    simp only [falling]
    split
    · exact continuousOn_const
    · first | exact hx.continuousOn | exact hy.continuousOn

end MD.Energy
