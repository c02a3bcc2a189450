import Verif.Props.Relabel
import Verif.Props.ZeroRod
import Verif.Lemmas.RelateMoored
import Verif.Model.WaveNumber

/-!
# C108: the results do not depend on the system of units
-/

set_option linter.unusedSimpArgs false
set_option linter.unusedSectionVars false
set_option linter.unusedVariables false
set_option linter.dupNamespace false

namespace MD.Units

open Matrix MD.Mat MD.Mooring MD.Bodies MD.Moored MD.Time
open MD.Frame (auxOf call)
open MD.Relate (NotAnderson)

/-! ## Specification -/

/-- How many new units of length, time and mass an old one is.  The same numbers describe a model test: lengths, times
and masses of the model are so many times those of the prototype. -/
structure Units where
  len : ℝ
  tim : ℝ
  mas : ℝ
  len_pos : 0 < len
  tim_pos : 0 < tim
  mas_pos : 0 < mas

namespace Units
variable (u : Units)

/-- Velocities. -/
noncomputable def vel : ℝ := u.len / u.tim
/-- Accelerations. -/
noncomputable def acc : ℝ := u.len / u.tim ^ 2
/-- Forces. -/
noncomputable def force : ℝ := u.mas * u.len / u.tim ^ 2
/-- Pressures and moduli of elasticity. -/
noncomputable def stress : ℝ := u.mas / (u.len * u.tim ^ 2)
/-- Densities. -/
noncomputable def dens : ℝ := u.mas / u.len ^ 3

end Units

variable (u : Units)

/-- A line in the new units.  A table of stresses over strains, of bending moments over curvatures, of stresses over
rates of strain is converted entry by entry. -/
noncomputable def line (L : Line) : Line where
  N := L.N
  d := u.len * L.d
  A := u.len ^ 2 * L.A
  rho := u.dens * L.rho
  E := u.stress * L.E
  c := u.stress * u.tim * L.c
  EI := u.force * u.len ^ 2 * L.EI
  Can := L.Can
  Cat := L.Cat
  Cdn := L.Cdn
  Cdt := L.Cdt
  stiff := L.stiff.map fun f x => u.stress * f x
  bstiff := L.bstiff.map fun f k => u.force * u.len * f (u.len * k)
  damp := L.damp.map fun f x => u.stress * f (u.tim * x)
  dampNeg := L.dampNeg
  l := fun j => u.len * L.l j
  V := fun j => u.len ^ 3 * L.V j
  r := fun j => u.len • L.r j
  rd := fun j => u.vel • L.rd j
  endTypeA := L.endTypeA
  endTypeB := L.endTypeB
  qA := L.qA
  qB := L.qB
  pin := fun j => u.stress * L.pin j
  isPb := L.isPb

/-- A point in the new units. -/
noncomputable def point (p : Point) : Point where
  pointM := u.mas * p.pointM
  pointV := u.len ^ 3 * p.pointV
  pointF := u.force • p.pointF
  pointCdA := u.len ^ 2 * p.pointCdA
  pointCa := p.pointCa
  r := u.len • p.r
  rd := u.vel • p.rd
  U := u.vel • p.U
  attached := p.attached.map fun a => (u.force • a.1, (u.force * u.len) • a.2.1, u.mas • a.2.2)

/-- The sea in the new units: stiffness and damping of the bottom are per area, the damping of the friction is a force
per velocity. -/
structure SameSea (e e' : Env) : Prop where
  rho_w : e'.rho_w = u.dens * e.rho_w
  g : e'.g = u.acc * e.g
  kb : e'.kb = u.force / u.len ^ 3 * e.kb
  cb : e'.cb = u.force / (u.vel * u.len ^ 2) * e.cb
  frictionCoefficient : e'.frictionCoefficient = e.frictionCoefficient
  fricDamp : e'.fricDamp = u.force / u.vel * e.fricDamp
  statDynFricScale : e'.statDynFricScale = e.statDynFricScale
  waterDepth : ∀ x y, e'.waterDepth (u.len * x) (u.len * y) = u.len * e.waterDepth x y

/-- The water at the nodes. -/
structure SameWater (e e' : Env) : Prop where
  zeta : ∀ j, e'.zeta j = u.len * e.zeta j
  U : ∀ j, e'.U j = u.vel • e.U j
  Ud : ∀ j, e'.Ud j = u.acc • e.Ud j
  pdyn : ∀ j, e'.pdyn j = u.stress * e.pdyn j

/-- The same system. -/
structure World (S S' : System) : Prop where
  nl : S'.nl = S.nl
  np : S'.np = S.np
  kind : S'.kind = S.kind
  att : S'.att = S.att
  inside : ∀ i < S.np, ∀ a ∈ S.att i, a.1 < S.nl
  sea : SameSea u S.sea S'.sea
  kin : ∀ t x, S'.kin (u.tim * t) (u.len • x) =
    (u.len * (S.kin t x).1, u.vel • (S.kin t x).2.1, u.acc • (S.kin t x).2.2.1, u.stress * (S.kin t x).2.2.2)

/-- The same moment. -/
structure SameMem (S : System) (m m' : Mem) : Prop where
  t : m'.t = u.tim * m.t
  line : ∀ i, m'.line i = line u (m.line i)
  pos : ∀ i < S.nl, 1 ≤ (m.line i).N
  point : ∀ i, m'.point i = point u (m.point i)
  ves : ∀ i, m'.ves i = (u.len • (m.ves i).1, u.vel • (m.ves i).2)
  bad : m'.bad ↔ m.bad

/-- States whose positions are `x` times and whose velocities are `y` times the others. -/
def Times (x y : ℝ) (e e' : State) : Prop :=
  (∀ i j, e'.1 i j = (x • (e.1 i j).1, y • (e.1 i j).2)) ∧ ∀ i, e'.2 i = (x • (e.2 i).1, y • (e.2 i).2)

/-- A moment of the two simulations. -/
structure SameSim (S : System) (s s' : Sim ℝ State Mem) : Prop where
  t : s'.t = u.tim * s.t
  tl : s'.tl = u.tim * s.tl
  n : s'.n = s.n
  r : Times u.len u.vel (s.r 0) (s'.r 0)
  rd : ∀ k, Times u.vel u.acc (s.rd k) (s'.rd k)
  m : SameMem u S s.m s'.m

/-- No length has been taken for zero, in either of the units, and no curvature in only one of them. -/
def Clear (m : Mem) : Prop :=
  (∀ x ∈ m.spans, ¬ EqualRealNos x 0 ∧ ¬ EqualRealNos (u.len * x) 0) ∧
    ∀ x ∈ m.bends, EqualRealNos (x / u.len) 0 ↔ EqualRealNos x 0

/-! ## Lines -/

/-- The same for one line. -/
structure ClearLine (L : Line) : Prop where
  N : 1 ≤ L.N
  seg : ∀ j < L.N, ¬ EqualRealNos (lstr L j) 0 ∧ ¬ EqualRealNos (u.len * lstr L j) 0
  span : ∀ j, 1 ≤ j → j < L.N → ¬ EqualRealNos (unitvector (L.r (j - 1)) (L.r (j + 1))).2 0 ∧
    ¬ EqualRealNos (u.len * (unitvector (L.r (j - 1)) (L.r (j + 1))).2) 0
  bend : ∀ j ≤ L.N, EqualRealNos (Kurv L j / u.len) 0 ↔ EqualRealNos (Kurv L j) 0

theorem norm_times (k : ℝ) (hk : 0 ≤ k) (x : V) : Mooring.norm (k • x) = k * Mooring.norm x := by
  unfold Mooring.norm
  rw [smul_dotProduct, dotProduct_smul, smul_eq_mul, smul_eq_mul, ← mul_assoc, Real.sqrt_mul (mul_nonneg hk hk),
    Real.sqrt_mul_self hk]

section line
variable {u} {L : Line}

theorem u_len : u.len ≠ 0 := u.len_pos.ne'
theorem u_tim : u.tim ≠ 0 := u.tim_pos.ne'
theorem u_mas : u.mas ≠ 0 := u.mas_pos.ne'
theorem u_vel : 0 < u.vel := div_pos u.len_pos u.tim_pos
theorem u_acc : 0 < u.acc := div_pos u.len_pos (pow_pos u.tim_pos 2)
theorem u_force : 0 < u.force := div_pos (mul_pos u.mas_pos u.len_pos) (pow_pos u.tim_pos 2)
theorem u_stress : 0 < u.stress := div_pos u.mas_pos (mul_pos u.len_pos (pow_pos u.tim_pos 2))

theorem unit_len (x y : V) : (unitvector (u.len • x) (u.len • y)).2 = u.len * (unitvector x y).2 := by
  unfold unitvector
  dsimp only
  rw [← smul_sub, norm_times _ u.len_pos.le]

theorem unit_dir (x y : V) (h : ¬ EqualRealNos (unitvector x y).2 0 ∧ ¬ EqualRealNos (u.len * (unitvector x y).2) 0) :
    (unitvector (u.len • x) (u.len • y)).1 = (unitvector x y).1 := by
  unfold unitvector at h ⊢
  dsimp only at h ⊢
  rw [← smul_sub, norm_times _ u.len_pos.le, if_neg h.1, if_neg h.2, smul_smul]
  congr 1
  rw [one_div, one_div, mul_inv, mul_comm u.len⁻¹, mul_assoc, inv_mul_cancel₀ u_len, mul_one]

theorem l_isEI : isEI (line u L) = isEI L := by
  unfold isEI line
  have : 0 < u.force * u.len ^ 2 * L.EI ↔ 0 < L.EI :=
    mul_pos_iff_of_pos_left (mul_pos u_force (pow_pos u.len_pos 2))
  simp only [this, Option.isSome_map]

variable (h : ClearLine u L)
include h

theorem l_lstr (j : ℕ) : lstr (line u L) j = u.len * lstr L j := unit_len _ _

theorem l_qs {j : ℕ} (hj : j < L.N) : qs (line u L) j = qs L j := unit_dir _ _ (h.seg j hj)

theorem l_ldstr {j : ℕ} (hj : j < L.N) : ldstr (line u L) j = u.vel * ldstr L j := by
  unfold ldstr
  rw [l_qs h hj]
  show qs L j ⬝ᵥ (u.vel • L.rd (j + 1) - u.vel • L.rd j) = _
  rw [← smul_sub, dotProduct_smul, smul_eq_mul]

theorem l_q {i : ℕ} (hi : i ≤ L.N) : q (line u L) i = q L i := by
  have hN := h.N
  have e1 : (unitvector ((line u L).r 0) ((line u L).r 1)).1 = (unitvector (L.r 0) (L.r 1)).1 := l_qs h hN
  have e2 : (unitvector ((line u L).r ((line u L).N - 1)) ((line u L).r (line u L).N)).1 =
      (unitvector (L.r (L.N - 1)) (L.r L.N)).1 := by
    have := l_qs h (show L.N - 1 < L.N by omega)
    unfold qs at this
    rw [show L.N - 1 + 1 = L.N by omega] at this
    exact this
  have e3 : (line u L).N = L.N := rfl
  unfold q
  rw [e1, e2, e3]
  by_cases h0 : i = 0
  · rw [if_pos h0, if_pos h0]
    rw [l_isEI]
    rfl
  · rw [if_neg h0, if_neg h0]
    by_cases h1 : i = L.N
    · rw [if_pos h1, if_pos h1]
      rw [l_isEI]
      rfl
    · rw [if_neg h1, if_neg h1]
      exact unit_dir _ _ (h.span i (by omega) (by omega))

omit h in
theorem curvature (length : ℝ) (q1 q2 : V) : getCurvature (u.len * length) q1 q2 = getCurvature length q1 q2 / u.len := by
  unfold getCurvature
  split_ifs
  · rw [zero_div]
  · rw [mul_comm u.len, ← div_div]
    ring

theorem l_Kurv {i : ℕ} (hi : i ≤ L.N) : Kurv (line u L) i = Kurv L i / u.len := by
  have hN := h.N
  have e3 : (line u L).N = L.N := rfl
  have e4 : (line u L).isPb = L.isPb := rfl
  have e5 : (line u L).endTypeA = L.endTypeA := rfl
  have e6 : (line u L).endTypeB = L.endTypeB := rfl
  rw [Reverse.Kurv_eq, Reverse.Kurv_eq, e3, e4, e5, e6, l_isEI]
  simp only [l_lstr h]
  by_cases h1 : isEI L ∨ L.isPb = true
  swap
  · rw [if_neg h1, if_neg h1, zero_div]
  rw [if_pos h1, if_pos h1]
  by_cases h0 : i = 0
  · subst h0
    rw [if_pos rfl, if_pos rfl, l_q h hi, l_qs h hN, curvature]
    split_ifs <;> simp
  rw [if_neg h0, if_neg h0]
  by_cases h2 : i = L.N
  · rw [if_pos h2, if_pos h2, l_q h hi, l_qs h (show i - 1 < L.N by omega), curvature]
    split_ifs <;> simp
  · rw [if_neg h2, if_neg h2, l_qs h (show i - 1 < L.N by omega), l_qs h (show i < L.N by omega), ← mul_add, curvature]

theorem l_zero {i : ℕ} (hi : i ≤ L.N) : EqualRealNos (Kurv (line u L) i) 0 = EqualRealNos (Kurv L i) 0 := by
  rw [l_Kurv h hi]
  exact propext (h.bend i hi)

theorem l_pvec {i : ℕ} (hi : i ≤ L.N) : pvec (line u L) i = pvec L i := by
  have hN := h.N
  have e3 : (line u L).N = L.N := rfl
  have e : (if i = 0 then q (line u L) 0 ⨯₃ qs (line u L) 0 else if i = (line u L).N then
      qs (line u L) (i - 1) ⨯₃ q (line u L) (line u L).N else qs (line u L) (i - 1) ⨯₃ qs (line u L) i) =
      (if i = 0 then q L 0 ⨯₃ qs L 0 else if i = L.N then qs L (i - 1) ⨯₃ q L L.N else qs L (i - 1) ⨯₃ qs L i) := by
    rw [e3]
    by_cases h0 : i = 0
    · rw [if_pos h0, if_pos h0, l_q h (Nat.zero_le _), l_qs h hN]
    · by_cases h1 : i = L.N
      · rw [if_neg h0, if_neg h0, if_pos h1, if_pos h1, l_q h le_rfl, l_qs h (by omega)]
      · rw [if_neg h0, if_neg h0, if_neg h1, if_neg h1, l_qs h (by omega), l_qs h (by omega)]
  unfold pvec
  rw [e, l_zero h hi]

omit h in
theorem adj (N : ℕ) (f f' : ℕ → ℝ) (k : ℝ) {i : ℕ} (hN : 1 ≤ N) (hi : i ≤ N) (hf : ∀ j < N, f' j = k * f j) :
    adjacent N f' i = k * adjacent N f i := by
  unfold adjacent
  by_cases h0 : i = 0
  · rw [if_pos h0, if_pos h0, hf i (by omega)]
  · by_cases h1 : i = N
    · rw [if_neg h0, if_neg h0, if_pos h1, if_pos h1, hf _ (by omega)]
    · rw [if_neg h0, if_neg h0, if_neg h1, if_neg h1, hf _ (by omega), hf _ (by omega), mul_add]

theorem l_T {j : ℕ} (hj : j < L.N) : T (line u L) j = u.force • T L j := by
  have e0 : (line u L).l j = u.len * L.l j := rfl
  have e1 : (u.len * lstr L j) / (u.len * L.l j) = lstr L j / L.l j := mul_div_mul_left _ _ u_len
  have e2 : getNonlinearE (line u L) (u.len * lstr L j) (u.len * L.l j) = u.stress * getNonlinearE L (lstr L j) (L.l j) := by
    unfold getNonlinearE
    rw [e1]
    cases hs : L.stiff with
    | none => simp only [line, hs, Option.map_none]
    | some f =>
      simp only [line, hs, Option.map_some]
      split_ifs
      · rw [mul_zero]
      · rw [mul_div_assoc]
  unfold T
  rw [l_lstr h, l_qs h hj, e0, e2, e1]
  dsimp only
  split_ifs
  · rw [smul_smul]
    congr 1
    have : u.stress * getNonlinearE L (lstr L j) (L.l j) * (line u L).A * (u.len * lstr L j - u.len * L.l j) / (u.len * L.l j) =
        u.stress * getNonlinearE L (lstr L j) (L.l j) * (line u L).A * ((u.len * (lstr L j - L.l j)) / (u.len * L.l j)) := by ring
    rw [this, mul_div_mul_left _ _ u_len]
    simp only [line, Units.stress, Units.force]
    have := u_len (u := u)
    have := u_tim (u := u)
    field_simp
  · rw [smul_zero]

theorem l_C {j : ℕ} : getNonlinearC (line u L) (u.vel * ldstr L j) (u.len * L.l j) =
    (getNonlinearC L (ldstr L j) (L.l j)).map (u.stress * u.tim * ·) := by
  have e1 : u.vel * ldstr L j / (u.len * L.l j) = (ldstr L j / L.l j) / u.tim := by
    unfold Units.vel
    rw [div_mul_eq_mul_div, div_div, mul_comm u.tim, mul_assoc, mul_div_mul_left _ _ u_len, div_div]
  unfold getNonlinearC
  rw [e1]
  cases hs : L.damp with
  | none => simp only [line, hs, Option.map_none, Option.map_some]
  | some f =>
    simp only [line, hs, Option.map_some]
    generalize ldstr L j / L.l j = X
    have h0 := u_tim (u := u)
    have hc : X / u.tim < 0 ↔ X < 0 := by
      rw [div_neg_iff]
      have := u.tim_pos
      constructor
      · rintro (⟨_, h2⟩ | ⟨h1, _⟩)
        · linarith
        · exact h1
      · intro h1
        exact Or.inr ⟨h1, this⟩
    have e2 : u.tim * (X / u.tim) = X := by field_simp
    have e3 : u.tim * (-(X / u.tim)) = -X := by field_simp
    have e4 : X / u.tim = 0 ↔ X = 0 := by simp [h0]
    have e5 : -(X / u.tim) = 0 ↔ -X = 0 := by simp [h0]
    simp only [hc, e2, e3, e4, e5, apply_ite (u.tim * ·)]
    cases L.dampNeg <;> by_cases hx : X < 0 <;> simp only [hx, if_true, if_false, e2, e3, e4, e5, Bool.false_eq_true] <;>
      split_ifs with h1 <;> simp only [Option.map_none, Option.map_some, Option.some.injEq] <;>
      try rfl
    all_goals
      have h1' : X ≠ 0 := fun hh => h1 (by simp [hh])
      field_simp

theorem l_Td {j : ℕ} (hj : j < L.N) : Td (line u L) j = (Td L j).map (u.force • ·) := by
  have e0 : (line u L).l j = u.len * L.l j := rfl
  unfold Td
  rw [l_ldstr h hj, l_qs h hj, e0, l_C h]
  cases getNonlinearC L (ldstr L j) (L.l j) with
  | none => rfl
  | some c =>
    simp only [Option.map_some, Option.bind_eq_bind, Option.bind_some, Option.pure_def, Option.some.injEq]
    rw [smul_smul]
    congr 1
    have : u.stress * u.tim * c * (line u L).A * (u.vel * ldstr L j) / (u.len * L.l j) =
        u.stress * u.tim * c * (line u L).A * u.vel * (1 * ldstr L j / (u.len * L.l j)) := by ring
    rw [this]
    have e : 1 * ldstr L j / (u.len * L.l j) = 1 / u.len * (ldstr L j / L.l j) := by rw [mul_div_mul_comm]
    rw [e]
    simp only [line, Units.stress, Units.force, Units.vel]
    have := u_len (u := u)
    have := u_tim (u := u)
    field_simp

theorem l_axial {i : ℕ} (hi : i ≤ L.N) : Mooring.axial (line u L) i = (Mooring.axial L i).map (u.force • ·) := by
  have hN := h.N
  have e3 : (line u L).N = L.N := rfl
  unfold Mooring.axial
  rw [e3]
  by_cases h0 : i = 0
  · rw [if_pos h0, if_pos h0, l_T h (by omega), l_Td h (by omega)]
    cases Td L i <;> simp
  · by_cases h1 : i = L.N
    · rw [if_neg h0, if_neg h0, if_pos h1, if_pos h1, l_T h (by omega), l_Td h (by omega)]
      cases Td L (i - 1) <;> simp [smul_sub]
    · rw [if_neg h0, if_neg h0, if_neg h1, if_neg h1, l_T h (by omega), l_Td h (by omega), l_T h (by omega), l_Td h (by omega)]
      cases Td L i <;> cases Td L (i - 1) <;> simp [smul_sub, smul_add]

theorem l_EI {i : ℕ} (hi : i ≤ L.N) : Kurv (line u L) i * getNonlinearEI (line u L) (Kurv (line u L) i) =
    u.force * u.len * (Kurv L i * getNonlinearEI L (Kurv L i)) := by
  rw [l_Kurv h hi]
  have h0 := u_len (u := u)
  unfold getNonlinearEI
  cases hs : L.bstiff with
  | none =>
    simp only [line, hs, Option.map_none]
    field_simp
  | some f =>
    simp only [line, hs, Option.map_some]
    rw [mul_div_cancel₀ _ h0]
    by_cases hk : Kurv L i = 0
    · rw [hk]
      simp
    · field_simp

omit h in
theorem addAt_times (k : ℝ) (b : ℕ → V) (i : ℕ) (x : V) : addAt (fun j => k • b j) i (k • x) = fun j => k • addAt b i x j := by
  funext j
  unfold addAt
  split_ifs
  · rw [smul_add]
  · rfl

theorem l_bend (b : ℕ → V) {i : ℕ} (hi : i ≤ L.N) :
    bendNode (line u L) (fun j => u.force • b j) i = fun j => u.force • bendNode L b i j := by
  have hN := h.N
  have e3 : (line u L).N = L.N := rfl
  have e5 : (line u L).endTypeA = L.endTypeA := rfl
  have e6 : (line u L).endTypeB = L.endTypeB := rfl
  have key : ∀ j, Kurv (line u L) i * getNonlinearEI (line u L) (Kurv (line u L) i) / (u.len * lstr L j) =
      u.force * (Kurv L i * getNonlinearEI L (Kurv L i) / lstr L j) := by
    intro j
    rw [l_EI h hi, mul_comm u.force, mul_assoc, mul_div_mul_left _ _ u_len, mul_div_assoc]
  unfold bendNode
  dsimp only
  rw [e3, e5, e6, l_pvec h hi, l_lstr h, l_lstr h, key, key, l_zero h hi]
  by_cases hK : EqualRealNos (Kurv L i) 0
  · rw [if_pos hK, if_pos hK]
  rw [if_neg hK, if_neg hK]
  by_cases h0 : i = 0
  · rw [if_pos h0, if_pos h0, l_qs h hN]
    split_ifs
    · rw [mul_smul, ← smul_neg, addAt_times, addAt_times]
    · rfl
  rw [if_neg h0, if_neg h0]
  by_cases h1 : i = L.N
  · rw [if_pos h1, if_pos h1, l_qs h (by omega)]
    split_ifs
    · rw [mul_smul, ← smul_neg, addAt_times, addAt_times]
    · rfl
  · rw [if_neg h1, if_neg h1, l_qs h (by omega), l_qs h (by omega)]
    rw [mul_smul, mul_smul, ← smul_neg, ← smul_sub, addAt_times, addAt_times, addAt_times]

theorem l_Bs (i : ℕ) : Bs (line u L) i = u.force • Bs L i := by
  have : ∀ (l : List ℕ), (∀ i ∈ l, i ≤ L.N) → ∀ b : ℕ → V,
      l.foldl (bendNode (line u L)) (fun j => u.force • b j) = fun j => u.force • l.foldl (bendNode L) b j := by
    intro l
    induction l with
    | nil => intro _ _; rfl
    | cons i l ih =>
      intro hl b
      rw [List.foldl_cons, List.foldl_cons, l_bend h b (hl i List.mem_cons_self),
        ih fun j hj => hl j (List.mem_cons_of_mem _ hj)]
  have e3 : (line u L).N = L.N := rfl
  unfold Bs
  rw [l_isEI, e3]
  split_ifs
  · have e := this (List.range (L.N + 1)) (fun i hi => Nat.lt_succ_iff.1 (List.mem_range.1 hi)) fun _ => 0
    simp only [smul_zero] at e
    rw [e]
  · rw [smul_zero]

/-! ### Water -/

variable {e e' : Env} (hs : SameSea u e e') (hk : SameWater u e e')

omit h in
theorem scale_up (w : V) (d k : ℝ) : scalevector (Mooring.normalize w) (k * d / 2) = k • scalevector (Mooring.normalize w) (d / 2) := by
  by_cases hw : 0 < w ⬝ᵥ w
  · have h1 : Mooring.normalize w ⬝ᵥ Mooring.normalize w = 1 := by
      unfold Mooring.normalize Mooring.norm
      rw [if_pos hw, smul_dotProduct, dotProduct_smul, smul_eq_mul, smul_eq_mul]
      have := Real.mul_self_sqrt hw.le
      have h0 := (Real.sqrt_pos.2 hw).ne'
      field_simp
      rw [pow_two, this]
    have h2 : ¬ EqualRealNos 1 0 := by
      unfold EqualRealNos eps
      norm_num
    unfold scalevector
    rw [h1]
    dsimp only
    rw [if_neg h2, if_neg h2, smul_smul]
    congr 1
    ring
  · have h1 : w = 0 := by
      rw [← dotProduct_self_eq_zero]
      refine le_antisymm (not_lt.1 hw) ?_
      simp only [dotProduct, Fin.sum_univ_three]
      nlinarith [mul_self_nonneg (w 0), mul_self_nonneg (w 1), mul_self_nonneg (w 2)]
    subst h1
    unfold Mooring.normalize scalevector
    simp

omit h in
theorem sub_scale (d : ℝ) (a b : V) (s : ℝ) : calcSubSeg (u.len * d) (u.len • a) (u.len • b) (u.len * s) = calcSubSeg d a b s := by
  have h0 := u.len_pos
  have c1 : ∀ x : V, (u.len • x) 2 - u.len * s = u.len * (x 2 - s) := fun x => by
    rw [Pi.smul_apply, smul_eq_mul, mul_sub]
  have c2 : ∀ x : V, u.len • x - ![0, 0, u.len * s] = u.len • (x - ![0, 0, s]) := fun x => by
    rw [smul_sub]
    simp
  unfold calcSubSeg
  dsimp only
  rw [c1, c1]
  have d1 : u.len * (a 2 - s) ≤ 0 ↔ a 2 - s ≤ 0 :=
    ⟨fun hh => not_lt.1 fun hc => absurd (mul_pos h0 hc) (not_lt.2 hh), fun hh => mul_nonpos_of_nonneg_of_nonpos h0.le hh⟩
  have d2 : ∀ x, u.len * x < 0 ↔ x < 0 := fun x =>
    ⟨fun hh => not_le.1 fun hc => absurd (mul_nonneg h0.le hc) (not_le.2 hh), fun hh => mul_neg_of_pos_of_neg h0 hh⟩
  have d3 : ∀ x, 0 < u.len * x ↔ 0 < x := fun x => mul_pos_iff_of_pos_left h0
  have d4 : u.len * (a 2 - s) = -(u.len * (b 2 - s)) ↔ a 2 - s = -(b 2 - s) := by
    rw [← mul_neg]
    exact mul_right_inj' h0.ne'
  simp only [d1, d2, d3, d4]
  by_cases g1 : a 2 - s ≤ 0 ∧ b 2 - s < 0
  · rw [if_pos g1, if_pos g1]
  rw [if_neg g1, if_neg g1]
  by_cases g2 : 0 < a 2 - s ∧ 0 < b 2 - s
  · rw [if_pos g2, if_pos g2]
  rw [if_neg g2, if_neg g2]
  by_cases g3 : a 2 - s = -(b 2 - s)
  · rw [if_pos g3, if_pos g3]
  rw [if_neg g3, if_neg g3]
  have core : ∀ lo up : V,
      |(u.len • lo - ![0, 0, u.len * s] - scalevector (Mooring.normalize ((u.len • up - ![0, 0, u.len * s] - (u.len • lo - ![0, 0, u.len * s])) ⨯₃
        (![0, 0, 1] ⨯₃ (u.len • up - ![0, 0, u.len * s] - (u.len • lo - ![0, 0, u.len * s]))))) (u.len * d / 2)) 2| /
      (|(u.len • lo - ![0, 0, u.len * s] - scalevector (Mooring.normalize ((u.len • up - ![0, 0, u.len * s] - (u.len • lo - ![0, 0, u.len * s])) ⨯₃
        (![0, 0, 1] ⨯₃ (u.len • up - ![0, 0, u.len * s] - (u.len • lo - ![0, 0, u.len * s]))))) (u.len * d / 2)) 2| +
      (u.len • up - ![0, 0, u.len * s] + scalevector (Mooring.normalize ((u.len • up - ![0, 0, u.len * s] - (u.len • lo - ![0, 0, u.len * s])) ⨯₃
        (![0, 0, 1] ⨯₃ (u.len • up - ![0, 0, u.len * s] - (u.len • lo - ![0, 0, u.len * s]))))) (u.len * d / 2)) 2) =
      |(lo - ![0, 0, s] - scalevector (Mooring.normalize ((up - ![0, 0, s] - (lo - ![0, 0, s])) ⨯₃
        (![0, 0, 1] ⨯₃ (up - ![0, 0, s] - (lo - ![0, 0, s]))))) (d / 2)) 2| /
      (|(lo - ![0, 0, s] - scalevector (Mooring.normalize ((up - ![0, 0, s] - (lo - ![0, 0, s])) ⨯₃
        (![0, 0, 1] ⨯₃ (up - ![0, 0, s] - (lo - ![0, 0, s]))))) (d / 2)) 2| +
      (up - ![0, 0, s] + scalevector (Mooring.normalize ((up - ![0, 0, s] - (lo - ![0, 0, s])) ⨯₃
        (![0, 0, 1] ⨯₃ (up - ![0, 0, s] - (lo - ![0, 0, s]))))) (d / 2)) 2) := by
    intro lo up
    rw [c2, c2, ← smul_sub]
    generalize lo - ![0, 0, s] = x
    generalize up - ![0, 0, s] = y
    have e1 : (u.len • (y - x)) ⨯₃ (![0, 0, 1] ⨯₃ (u.len • (y - x))) = (u.len * u.len) • ((y - x) ⨯₃ (![0, 0, 1] ⨯₃ (y - x))) := by
      rw [map_smul, map_smul, map_smul, LinearMap.smul_apply, smul_smul]
    rw [e1, Rods.Zero.normalize_smul _ _ (mul_pos h0 h0), scale_up, ← smul_sub, ← smul_add, Pi.smul_apply, Pi.smul_apply,
      smul_eq_mul, smul_eq_mul, abs_mul, abs_of_pos h0, ← mul_add, mul_div_mul_left _ _ h0.ne']
  have key : ∀ b' : Prop, ∀ _ : Decidable b', ∀ x y : V, (if b' then u.len • x else u.len • y) = u.len • (if b' then x else y) := by
    intro b' _ x y
    split_ifs <;> rfl
  by_cases g4 : a 2 - s < 0
  · simp only [if_pos g4]
    exact core a b
  · simp only [if_neg g4]
    exact core b a

include hk

theorem l_F (j : ℕ) : F (line u L) e' j = F L e j := by
  unfold F
  rw [hk.zeta, hk.zeta, ← mul_add, ← mul_assoc, mul_comm (1 / 2) u.len, mul_assoc]
  exact sub_scale _ _ _ _

theorem l_FV {i : ℕ} (hi : i ≤ L.N) : adjacent (line u L).N (fun j => F (line u L) e' j * (line u L).V j) i =
    u.len ^ 3 * adjacent L.N (fun j => F L e j * L.V j) i := by
  refine adj L.N _ _ _ h.N hi fun j hj => ?_
  rw [l_F h hk]
  simp only [line]
  ring

theorem l_Fl {i : ℕ} (hi : i ≤ L.N) : adjacent (line u L).N (fun j => F (line u L) e' j * (line u L).l j) i =
    u.len * adjacent L.N (fun j => F L e j * L.l j) i := by
  refine adj L.N _ _ _ h.N hi fun j hj => ?_
  rw [l_F h hk]
  simp only [line]
  ring

omit hk in
theorem l_l {i : ℕ} (hi : i ≤ L.N) : adjacent (line u L).N (line u L).l i = u.len * adjacent L.N L.l i :=
  adj L.N _ _ _ h.N hi fun j hj => rfl

include hs

theorem l_M {i : ℕ} (hi : i ≤ L.N) : M (line u L) e' i = u.mas • M L e i := by
  have h0 := u_len (u := u)
  unfold M m v
  dsimp only
  rw [l_FV h hk hi, l_l h hi, l_q h hi, hs.rho_w]
  have a1 : Real.pi / 8 * ((line u L).d * (line u L).d * (line u L).rho * (u.len * adjacent L.N L.l i)) =
      u.mas * (Real.pi / 8 * (L.d * L.d * L.rho * adjacent L.N L.l i)) := by
    simp only [line, Units.dens]
    field_simp
  have a2 : u.dens * e.rho_w * (1 / 2 * (u.len ^ 3 * adjacent L.N (fun j => F L e j * L.V j) i)) =
      u.mas * (e.rho_w * (1 / 2 * adjacent L.N (fun j => F L e j * L.V j) i)) := by
    simp only [Units.dens]
    field_simp
  rw [a1, a2, mul_smul u.mas, mul_smul u.mas, ← smul_add]
  rfl

theorem l_Pb {i : ℕ} (hi : i ≤ L.N) : Pb (line u L) e' i = u.force • Pb L e i := by
  have h0 := u_len (u := u)
  have h1 := u_tim (u := u)
  have e4 : (line u L).isPb = L.isPb := rfl
  have e5 : e'.zeta i - (line u L).r i 2 = u.len * (e.zeta i - L.r i 2) := by
    rw [hk.zeta]
    simp only [line, Pi.smul_apply, smul_eq_mul]
    ring
  have e6 : max 0 (u.len * (e.zeta i - L.r i 2)) = u.len * max 0 (e.zeta i - L.r i 2) := by
    rw [mul_max_of_nonneg _ _ u.len_pos.le, mul_zero]
  unfold Pb
  rw [e4, l_zero h hi]
  split_ifs
  · dsimp only
    rw [l_q h hi, l_pvec h hi, l_l h hi, l_Kurv h hi, e5, e6, hs.rho_w, hs.g, hk.pdyn, smul_smul]
    congr 1
    simp only [line, Units.dens, Units.acc, Units.stress, Units.force]
    field_simp
  · rw [smul_zero]

theorem l_W {i : ℕ} (hi : i ≤ L.N) : W (line u L) e' i = u.force • W L e i := by
  have h0 := u_len (u := u)
  have h1 := u_tim (u := u)
  have e1 : adjacent (line u L).N (fun j => (line u L).l j * ((line u L).rho - F (line u L) e' j * e'.rho_w)) i =
      u.len * u.dens * adjacent L.N (fun j => L.l j * (L.rho - F L e j * e.rho_w)) i := by
    refine adj L.N _ _ _ h.N hi fun j hj => ?_
    rw [l_F h hk, hs.rho_w]
    simp only [line]
    ring
  unfold W
  rw [e1, hs.g]
  generalize adjacent L.N (fun j => L.l j * (L.rho - F L e j * e.rho_w)) i = w
  simp only [smul_cons, smul_eq_mul, mul_zero, smul_empty]
  congr 3
  simp only [line, Units.dens, Units.acc, Units.force]
  field_simp

omit hs in
theorem l_flow {i : ℕ} (hi : i ≤ L.N) : vq (line u L) e' i = u.vel • vq L e i ∧ vp (line u L) e' i = u.vel • vp L e i ∧
    aq (line u L) e' i = u.acc • aq L e i ∧ ap (line u L) e' i = u.acc • ap L e i := by
  have e1 : vrel (line u L) e' i = u.vel • vrel L e i := by
    unfold vrel
    rw [hk.U, smul_sub]
    rfl
  have e2 : vq (line u L) e' i = u.vel • vq L e i := by
    unfold vq
    rw [e1, l_q h hi, smul_dotProduct, smul_assoc]
  have e3 : aq (line u L) e' i = u.acc • aq L e i := by
    unfold aq
    rw [hk.Ud, l_q h hi, smul_dotProduct, smul_assoc]
  refine ⟨e2, ?_, e3, ?_⟩
  · unfold vp
    rw [e1, e2, smul_sub]
  · unfold ap
    rw [hk.Ud, e3, smul_sub]

theorem l_drag {i : ℕ} (hi : i ≤ L.N) : Dp (line u L) e' i = u.force • Dp L e i ∧ Dq (line u L) e' i = u.force • Dq L e i ∧
    Ap (line u L) e' i = u.force • Ap L e i ∧ Aq (line u L) e' i = u.force • Aq L e i := by
  have h0 := u_len (u := u)
  have h1 := u_tim (u := u)
  obtain ⟨f1, f2, f3, f4⟩ := l_flow h hk hi
  refine ⟨?_, ?_, ?_, ?_⟩
  · unfold Dp
    rw [f2, l_Fl h hk hi, hs.rho_w, norm_times _ u_vel.le, smul_smul, smul_smul]
    congr 1
    simp only [line, Units.dens, Units.vel, Units.force]
    field_simp
  · unfold Dq
    rw [f1, l_Fl h hk hi, hs.rho_w, norm_times _ u_vel.le, smul_smul, smul_smul]
    congr 1
    simp only [line, Units.dens, Units.vel, Units.force]
    field_simp
  · unfold Ap
    rw [f4, l_FV h hk hi, hs.rho_w, smul_smul, smul_smul]
    congr 1
    simp only [line, Units.dens, Units.acc, Units.force]
    field_simp
  · unfold Aq
    rw [f3, l_FV h hk hi, hs.rho_w, smul_smul, smul_smul]
    congr 1
    simp only [line, Units.dens, Units.acc, Units.force]
    field_simp

theorem l_B {i : ℕ} (hi : i ≤ L.N) : B (line u L) e' i = u.force • B L e i := by
  have h0 := u_len (u := u)
  have h1 := u_tim (u := u)
  have h2 := u_mas (u := u)
  have hv := u_vel (u := u)
  have hf := u_force (u := u)
  have e1 : ∀ k, (line u L).r i k = u.len * L.r i k := fun k => rfl
  have e2 : ∀ k, (line u L).rd i k = u.vel * L.rd i k := fun k => rfl
  unfold B
  dsimp only
  rw [e1, e1, e1, e2, e2, e2, hs.waterDepth, l_l h hi, hs.kb, hs.cb, hs.frictionCoefficient, hs.fricDamp, hs.statDynFricScale]
  have c0 : u.len * L.r i 2 < u.len * e.waterDepth (L.r i 0) (L.r i 1) ↔ L.r i 2 < e.waterDepth (L.r i 0) (L.r i 1) :=
    mul_lt_mul_iff_right₀ u.len_pos
  by_cases c : L.r i 2 < e.waterDepth (L.r i 0) (L.r i 1)
  swap
  · rw [if_neg c, if_neg (fun hc => c (c0.1 hc)), smul_zero]
  rw [if_pos c, if_pos (c0.2 c)]
  have eB : ((u.len * e.waterDepth (L.r i 0) (L.r i 1) - u.len * L.r i 2) * (u.force / u.len ^ 3 * e.kb) -
      u.vel * L.rd i 2 * (u.force / (u.vel * u.len ^ 2) * e.cb)) * (1 / 2) * (line u L).d * (u.len * adjacent L.N L.l i) =
      u.force * (((e.waterDepth (L.r i 0) (L.r i 1) - L.r i 2) * e.kb - L.rd i 2 * e.cb) * (1 / 2) * L.d * adjacent L.N L.l i) := by
    have := hv.ne'
    simp only [line]
    field_simp
  have eV : Real.sqrt (u.vel * L.rd i 0 * (u.vel * L.rd i 0) + u.vel * L.rd i 1 * (u.vel * L.rd i 1)) =
      u.vel * Real.sqrt (L.rd i 0 * L.rd i 0 + L.rd i 1 * L.rd i 1) := by
    rw [← Real.sqrt_mul_self hv.le, ← Real.sqrt_mul (mul_self_nonneg _), Real.sqrt_mul_self hv.le]
    congr 1
    ring
  rw [eB, eV, abs_mul, abs_of_pos hf]
  generalize ((e.waterDepth (L.r i 0) (L.r i 1) - L.r i 2) * e.kb - L.rd i 2 * e.cb) * (1 / 2) * L.d * adjacent L.N L.l i = Bz
  generalize Real.sqrt (L.rd i 0 * L.rd i 0 + L.rd i 1 * L.rd i 1) = bv
  have eF : u.vel * bv * e.frictionCoefficient * (u.force / u.vel * e.fricDamp) = u.force * (bv * e.frictionCoefficient * e.fricDamp) := by
    have := hv.ne'
    field_simp
  have eM : u.force * |Bz| * e.frictionCoefficient = u.force * (|Bz| * e.frictionCoefficient) := by ring
  have eS : e.statDynFricScale * (u.force * (|Bz| * e.frictionCoefficient)) = u.force * (e.statDynFricScale * (|Bz| * e.frictionCoefficient)) := by ring
  rw [eF, eM, eS]
  have eI : (if u.force * (bv * e.frictionCoefficient * e.fricDamp) > u.force * (e.statDynFricScale * (|Bz| * e.frictionCoefficient)) then
      u.force * (|Bz| * e.frictionCoefficient) else u.force * (bv * e.frictionCoefficient * e.fricDamp)) =
      u.force * (if bv * e.frictionCoefficient * e.fricDamp > e.statDynFricScale * (|Bz| * e.frictionCoefficient) then
        |Bz| * e.frictionCoefficient else bv * e.frictionCoefficient * e.fricDamp) := by
    rw [mul_ite]
    exact if_congr (mul_lt_mul_iff_right₀ hf) rfl rfl
  rw [eI]
  generalize (if bv * e.frictionCoefficient * e.fricDamp > e.statDynFricScale * (|Bz| * e.frictionCoefficient) then
        |Bz| * e.frictionCoefficient else bv * e.frictionCoefficient * e.fricDamp) = ff
  have hz : u.vel * bv = 0 ↔ bv = 0 := by simp [hv.ne']
  by_cases hb : bv = 0
  · rw [if_pos hb, if_pos (hz.2 hb)]
    simp
  · rw [if_neg hb, if_neg (fun hc => hb (hz.1 hc))]
    simp only [smul_cons, smul_eq_mul, smul_empty]
    have g : ∀ y, -(u.force * ff) * (u.vel * y) / (u.vel * bv) = u.force * (-ff * y / bv) := by
      intro y
      have := hv.ne'
      field_simp
    rw [g, g]

/-- C108: forces and masses of a line. -/
theorem C108_line {i : ℕ} (hi : i ≤ L.N) : Fnet (line u L) e' i = (Fnet L e i).map (u.force • ·) ∧
    M (line u L) e' i = u.mas • M L e i := by
  refine ⟨?_, l_M h hs hk hi⟩
  obtain ⟨f1, f2, f3, f4⟩ := l_drag h hs hk hi
  unfold Fnet
  rw [l_axial h hi, l_W h hs hk hi, f1, f2, f3, f4, l_B h hs hk hi, l_Bs h, l_Pb h hs hk hi]
  cases Mooring.axial L i <;> simp [smul_add]

/-- C108: what is reported of the lines. -/
theorem C108_tension {i : ℕ} : getNodeTen (line u L) i = (getNodeTen L i).map (u.force • ·) ∧
    fairTen (line u L) = (fairTen L).map (u.force * ·) ∧
    (i ≤ L.N → outputTen (line u L) e' i = (outputTen L e i).map (u.force * ·)) := by
  have hN := h.N
  have e2 : (line u L).N = L.N := rfl
  have h1 : ∀ i, getNodeTen (line u L) i = (getNodeTen L i).map (u.force • ·) := by
    intro i
    unfold getNodeTen
    rw [e2]
    by_cases g0 : i > L.N
    · rw [if_pos g0, if_pos g0]
      rfl
    rw [if_neg g0, if_neg g0]
    by_cases g1 : i = 0
    · rw [if_pos g1, if_pos g1, l_T h (by omega), l_Td h (by omega)]
      cases Td L 0 <;> simp
    rw [if_neg g1, if_neg g1]
    by_cases g2 : i = L.N
    · rw [if_pos g2, if_pos g2, l_T h (by omega), l_Td h (by omega)]
      cases Td L (L.N - 1) <;> simp
    · rw [if_neg g2, if_neg g2, l_T h (by omega), l_T h (by omega), l_Td h (by omega), l_Td h (by omega)]
      cases Td L i <;> cases Td L (i - 1) <;> simp [smul_add]
      module
  refine ⟨h1 i, ?_, fun hi => ?_⟩
  · unfold fairTen
    rw [e2, h1]
    cases getNodeTen L L.N <;> simp [norm_times _ u_force.le]
  · unfold outputTen
    rw [(C108_line h hs hk hi).1]
    cases Fnet L e i <;> simp [norm_times _ u_force.le]

end line

/-! ## Systems -/

section system
variable {u} {S S' : System}

theorem setEnd_line (x xd : V) (p : EndPt) (L : Line) :
    setEnd (u.len • x) (u.vel • xd) p (line u L) = line u (setEnd x xd p L) := by
  cases p <;> simp only [setEnd, line, Line.mk.injEq, true_and, and_true] <;>
    refine ⟨?_, ?_⟩ <;> funext j <;> simp only [Function.update_apply] <;> split_ifs <;> rfl

theorem pass_line (x xd : V) (l : List (ℕ × EndPt)) (f f' : ℕ → Line) (h : ∀ i, f' i = line u (f i)) (i : ℕ) :
    pass (u.len • x) (u.vel • xd) l f' i = line u (pass x xd l f i) := by
  unfold pass
  induction l generalizing f f' with
  | nil => exact h i
  | cons a l ih =>
    apply ih
    intro j
    simp only [Function.update_apply]
    split_ifs
    · rw [h, setEnd_line]
    · exact h j

theorem pass_N (x xd : V) (l : List (ℕ × EndPt)) (f : ℕ → Line) (i : ℕ) : (pass x xd l f i).N = (f i).N := by
  unfold pass
  induction l generalizing f with
  | nil => rfl
  | cons a l ih =>
    rw [List.foldl_cons, ih]
    simp only [Function.update_apply]
    split_ifs with ha
    · subst ha
      cases a.2 <;> rfl
    · rfl

theorem move_same (hw : World u S S') (i : ℕ) (x xd : V) {m m' : Mem} (h : SameMem u S m m') :
    SameMem u S (move S i x xd m) (move S' i (u.len • x) (u.vel • xd) m') := by
  refine ⟨h.t, ?_, ?_, ?_, h.ves, h.bad⟩
  · intro j
    show pass _ _ (S'.att i) _ j = _
    rw [hw.att]
    exact pass_line x xd _ _ _ h.line j
  · intro j hj
    show 1 ≤ (pass _ _ _ _ j).N
    rw [pass_N]
    exact h.pos j hj
  · intro j
    simp only [move, Function.update_apply]
    split_ifs
    · rw [h.point]
      rfl
    · exact h.point j

theorem fold_same {f f' : Mem → ℕ → Mem} (hf : ∀ m m' i, SameMem u S m m' → SameMem u S (f m i) (f' m' i))
    (l : List ℕ) {m m' : Mem} (h : SameMem u S m m') : SameMem u S (l.foldl f m) (l.foldl f' m') := by
  induction l generalizing m m' with
  | nil => exact h
  | cons a l ih => exact ih (hf _ _ _ h)

theorem update_same (hw : World u S S') (t tl : ℝ) {e e' : State} (he : Times u.len u.vel e e') {m m' : Mem}
    (h : SameMem u S m m') : SameMem u S (update S t tl e m) (update S' (u.tim * t) (u.tim * tl) e' m') := by
  have h1 : SameMem u S ((List.range S.np).foldl (fairlead S tl) m)
      ((List.range S'.np).foldl (fairlead S' (u.tim * tl)) m') := by
    rw [hw.np]
    refine fold_same (fun a a' i ha => ?_) _ h
    unfold fairlead
    rw [hw.kind]
    by_cases hk : S.kind i = .COUPLED
    · rw [if_pos hk, if_pos hk, ha.ves]
      have := move_same hw i ((a.ves i).1 + tl • (a.ves i).2) (a.ves i).2 ha
      rw [smul_add, smul_smul] at this
      dsimp only
      rw [smul_smul]
      have e1 : u.tim * tl * u.vel = u.len * tl := by
        have := u_tim (u := u)
        unfold Units.vel
        field_simp
      rw [e1]
      exact this
    · rw [if_neg hk, if_neg hk]
      exact ha
  have h2 : SameMem u S ((List.range S.np).foldl (freeState S e) ((List.range S.np).foldl (fairlead S tl) m))
      ((List.range S'.np).foldl (freeState S' e') ((List.range S'.np).foldl (fairlead S' (u.tim * tl)) m')) := by
    revert h1
    rw [hw.np]
    intro h1
    refine fold_same (fun a a' i ha => ?_) _ h1
    unfold freeState
    rw [hw.kind, he.2]
    by_cases hk : S.kind i = .FREE
    · rw [if_pos hk, if_pos hk]
      exact move_same hw i (e.2 i).1 (e.2 i).2 ha
    · rw [if_neg hk, if_neg hk]
      exact ha
  refine ⟨rfl, ?_, ?_, h2.point, h2.ves, h2.bad⟩
  · intro i
    simp only [update]
    rw [hw.nl]
    by_cases hi : i < S.nl
    · rw [if_pos hi, if_pos hi, h2.line]
      simp only [lineState, line, Line.mk.injEq, true_and, and_true]
      refine ⟨?_, ?_⟩ <;> funext j <;> split_ifs with h3 <;> simp [h3, he.1]
    · rw [if_neg hi, if_neg hi, h2.line]
  · intro i hi
    simp only [update, if_pos hi]
    exact h2.pos i hi

theorem inv_times (k : ℝ) (hk : k ≠ 0) (A : M3 ℝ) : (k • A)⁻¹ = k⁻¹ • A⁻¹ := by
  rw [Matrix.inv_def, Matrix.inv_def, Matrix.adjugate_smul, Matrix.det_smul, smul_smul, smul_smul]
  congr 1
  simp only [Fintype.card_fin, Ring.inverse_eq_inv']
  rw [mul_inv]
  field_simp

theorem solve_times (k c : ℝ) (hk : k ≠ 0) (A : M3 ℝ) (f : V) : (k • A)⁻¹ *ᵥ (c • f) = (c / k) • (A⁻¹ *ᵥ f) := by
  rw [inv_times k hk, smul_mulVec, mulVec_smul, smul_smul]
  congr 1
  field_simp

theorem force_mas : u.force / u.mas = u.acc := by
  have := u_mas (u := u)
  unfold Units.force Units.acc
  field_simp

/-- C108: force and mass of a point. -/
theorem C108_point (p : Point) (rho g : ℝ) : (point u p).doRHS (u.dens * rho) (u.acc * g) =
    (u.force • (p.doRHS rho g).1, u.mas • (p.doRHS rho g).2) := by
  have h0 := u_len (u := u)
  have h1 := u_tim (u := u)
  have hl : ∀ (l : List (V × V × M3 ℝ)) (a : V × M3 ℝ),
      pointLoop (l.map fun a => (u.force • a.1, (u.force * u.len) • a.2.1, u.mas • a.2.2)) (u.force • a.1, u.mas • a.2) =
        (u.force • (pointLoop l a).1, u.mas • (pointLoop l a).2) := by
    intro l
    induction l with
    | nil => intro a; rfl
    | cons b l ih =>
      intro a
      rw [List.map_cons, pointLoop, pointLoop, ← ih]
      dsimp only
      rw [smul_add, smul_add]
  have e1 : (point u p).pointF + ![0, 0, u.acc * g * ((point u p).pointV * (u.dens * rho) - (point u p).pointM)] =
      u.force • (p.pointF + ![0, 0, g * (p.pointV * rho - p.pointM)]) := by
    rw [smul_add]
    simp only [smul_cons, smul_eq_mul, mul_zero, smul_empty]
    congr 4
    simp only [point, Units.acc, Units.dens, Units.force]
    field_simp
  have e2 : (point u p).U - (point u p).rd = u.vel • (p.U - p.rd) := (smul_sub _ _ _).symm
  have e3 : Rods.normalized (u.vel • (p.U - p.rd)) = Rods.normalized (p.U - p.rd) :=
    Rods.Zero.normalize_smul _ _ u_vel
  unfold Point.doRHS
  dsimp only
  rw [e1, e2, e3]
  have e4 : (point u p).pointM • (1 : M3 ℝ) = u.mas • (p.pointM • (1 : M3 ℝ)) := by rw [smul_smul]; rfl
  rw [e4]
  have e5 := hl p.attached (p.pointF + ![0, 0, g * (p.pointV * rho - p.pointM)], p.pointM • (1 : M3 ℝ))
  dsimp only at e5
  have e6 : (point u p).attached = p.attached.map fun a => (u.force • a.1, (u.force * u.len) • a.2.1, u.mas • a.2.2) := rfl
  rw [e6, e5]
  dsimp only
  rw [smul_dotProduct, dotProduct_smul, smul_eq_mul, smul_eq_mul, smul_add, smul_add, smul_smul, smul_smul]
  congr 3
  · simp only [point, Units.vel, Units.dens, Units.force]
    field_simp
  · simp only [point, Units.dens]
    field_simp

section
variable (hw : World u S S') {m m' : Mem} (h : SameMem u S m m')
include hw h

theorem sea_same (i : ℕ) : SameSea u (lineEnv S m i) (lineEnv S' m' i) := by
  obtain ⟨h1, h2, h3, h4, h5, h6, h7, h8⟩ := hw.sea
  exact ⟨h1, h2, h3, h4, h5, h6, h7, h8⟩

theorem water_same (i : ℕ) : SameWater u (lineEnv S m i) (lineEnv S' m' i) := by
  have e : ∀ j, S'.kin m'.t ((m'.line i).r j) = (u.len * (S.kin m.t ((m.line i).r j)).1, u.vel • (S.kin m.t ((m.line i).r j)).2.1,
      u.acc • (S.kin m.t ((m.line i).r j)).2.2.1, u.stress * (S.kin m.t ((m.line i).r j)).2.2.2) := by
    intro j
    rw [h.t, h.line]
    exact hw.kin _ _
  refine ⟨?_, ?_, ?_, ?_⟩ <;> intro j <;> simp only [lineEnv, envOf, e]

theorem clear_line (hc : Clear u (eval S m).2) {i : ℕ} (hi : i < S.nl) : ClearLine u (m.line i) := by
  refine ⟨h.pos i hi, fun j hj => hc.1 _ (.inr ⟨i, j, hi, .inl ⟨hj, rfl⟩⟩),
    fun j h1 hj => hc.1 _ (.inr ⟨i, j, hi, .inr ⟨h1, hj, rfl⟩⟩), fun j hj => hc.2 _ (.inr ⟨i, j, hi, hj, rfl⟩)⟩

theorem node_same (hc : Clear u (eval S m).2) {i : ℕ} (hi : i < S.nl) {j : ℕ} (hj : j ≤ (m.line i).N) :
    nodeRate S' m' i j = (nodeRate S m i j).map fun x => (u.vel • x.1, u.acc • x.2) := by
  obtain ⟨h1, h2⟩ := C108_line (clear_line hw h hc hi) (sea_same hw h i) (water_same hw h i) hj
  unfold nodeRate
  rw [h.line, h1, h2, Option.map_map, Option.map_map]
  congr 1
  funext f
  simp only [Function.comp_apply, solve_times _ _ u_mas, force_mas]
  rfl

theorem ends_same (hc : Clear u (eval S m).2) (a : ℕ × EndPt) (ha : a.1 < S.nl) :
    getEndStuff (m'.line a.1) (lineEnv S' m' a.1) a.2 =
      (getEndStuff (m.line a.1) (lineEnv S m a.1) a.2).map fun a => (u.force • a.1, (u.force * u.len) • a.2.1, u.mas • a.2.2) := by
  have hl := fun {j} => C108_line (clear_line hw h hc ha) (sea_same hw h a.1) (water_same hw h a.1) (i := j)
  have e : (line u (m.line a.1)).N = (m.line a.1).N := rfl
  rw [h.line]
  unfold getEndStuff
  cases a.2 with
  | TOP =>
    obtain ⟨h1, h2⟩ := hl le_rfl
    dsimp only
    rw [e, h1, h2]
    cases Fnet (m.line a.1) (lineEnv S m a.1) (m.line a.1).N <;> simp
  | BOTTOM =>
    obtain ⟨h1, h2⟩ := hl (Nat.zero_le _)
    dsimp only
    rw [h1, h2]
    cases Fnet (m.line a.1) (lineEnv S m a.1) 0 <;> simp

theorem loaded_same (hc : Clear u (eval S m).2) {i : ℕ} (hi : i < S.np) : loaded S' m' i = (loaded S m i).map (point u) := by
  have h1 : ∀ l : List (ℕ × EndPt), (∀ a ∈ l, a.1 < S.nl) →
      (l.mapM fun a => getEndStuff (m'.line a.1) (lineEnv S' m' a.1) a.2) =
      (l.mapM fun a => getEndStuff (m.line a.1) (lineEnv S m a.1) a.2).map
        (List.map fun a => (u.force • a.1, (u.force * u.len) • a.2.1, u.mas • a.2.2)) := by
    intro l
    induction l with
    | nil => intro _; rfl
    | cons a l ih =>
      intro hl
      rw [List.mapM_cons, List.mapM_cons, ih fun b hb => hl b (List.mem_cons_of_mem _ hb),
        ends_same hw h hc a (hl a List.mem_cons_self)]
      cases getEndStuff (m.line a.1) (lineEnv S m a.1) a.2 with
      | none => rfl
      | some x =>
        cases l.mapM fun a => getEndStuff (m.line a.1) (lineEnv S m a.1) a.2 with
        | none => rfl
        | some l => rfl
  unfold loaded
  rw [hw.att, h1 _ (hw.inside i hi), Option.map_map, Option.map_map]
  congr 1
  funext l
  have e : (point u (m.point i)).r = u.len • (m.point i).r := rfl
  simp only [Function.comp_apply, h.point, h.t, e, hw.kin]
  rfl

theorem rate_same (hc : Clear u (eval S m).2) {i : ℕ} (hi : i < S.np) :
    pointRate S' m' i = (pointRate S m i).map fun x => (u.vel • x.1, u.acc • x.2) := by
  unfold pointRate
  rw [loaded_same hw h hc hi, Option.map_map, Option.map_map]
  congr 1
  funext p
  simp only [Function.comp_apply, hw.sea.rho_w, hw.sea.g, C108_point, solve_times _ _ u_mas, force_mas]
  rfl

/-- C108: the forces given back for the points. -/
theorem C108_force (hc : Clear u (eval S m).2) {i : ℕ} (hi : i < S.np) :
    reported S' m' i = (reported S m i).map (u.force • ·) := by
  unfold reported
  rw [loaded_same hw h hc hi, Option.map_map, Option.map_map]
  congr 1
  funext p
  simp only [Function.comp_apply, hw.sea.rho_w, hw.sea.g, C108_point]

theorem asked_same (x : ℕ ⊕ (ℕ × ℕ)) : asked S' m' x = asked S m x := by
  cases x with
  | inl i => simp only [asked, hw.np, hw.kind]
  | inr x =>
    simp only [asked, hw.nl, h.line]
    rfl

omit hw h in
theorem getD_map (x : Option (V × V)) :
    ((x.map fun x => (u.vel • x.1, u.acc • x.2)).getD 0) = (u.vel • (x.getD 0).1, u.acc • (x.getD 0).2) := by
  cases x <;> simp [Prod.zero_eq_mk]

theorem evals_same (hc : Clear u (eval S m).2) : Times u.vel u.acc (eval S m).1 (eval S' m').1 := by
  constructor
  · intro i j
    simp only [eval]
    rw [asked_same hw h]
    split_ifs with ha
    · rw [node_same hw h hc ha.1 ha.2.2.le, getD_map]
    · simp [Prod.zero_eq_mk]
  · intro i
    simp only [eval]
    rw [asked_same hw h]
    split_ifs with ha
    · rw [rate_same hw h hc ha.1, getD_map]
    · simp [Prod.zero_eq_mk]

theorem after_same (hc : Clear u (eval S m).2) : SameMem u S (eval S m).2 (eval S' m').2 := by
  refine ⟨h.t, h.line, h.pos, h.point, h.ves, ?_⟩
  show (eval S' m').2.bad ↔ (eval S m).2.bad
  simp only [eval, h.bad, asked_same hw h]
  refine or_congr Iff.rfl (or_congr ?_ ?_)
  · refine exists_congr fun i => exists_congr fun j => and_congr_right fun ha => ?_
    rw [node_same hw h hc ha.1 ha.2.2.le, Option.map_eq_none_iff]
  · refine exists_congr fun i => and_congr_right fun ha => ?_
    rw [rate_same hw h hc ha.1, Option.map_eq_none_iff]

end

/-- `update` changes nothing of what is recorded. -/
theorem update_rec (t tl : ℝ) (e : State) (m : Mem) : (update S t tl e m).spans = m.spans ∧ (update S t tl e m).bends = m.bends := by
  have h1 : ∀ (f : Mem → ℕ → Mem), (∀ m i, (f m i).spans = m.spans ∧ (f m i).bends = m.bends) → ∀ (l : List ℕ) (m : Mem),
      (l.foldl f m).spans = m.spans ∧ (l.foldl f m).bends = m.bends := by
    intro f hf l
    induction l with
    | nil => exact fun m => ⟨rfl, rfl⟩
    | cons i l ih =>
      intro m
      rw [List.foldl_cons]
      exact ⟨(ih _).1.trans (hf m i).1, (ih _).2.trans (hf m i).2⟩
  have h2 := h1 (fairlead S tl) (fun m i => by unfold fairlead; split_ifs <;> exact ⟨rfl, rfl⟩) (List.range S.np) m
  have h3 := h1 (freeState S e) (fun m i => by unfold freeState; split_ifs <;> exact ⟨rfl, rfl⟩) (List.range S.np)
    ((List.range S.np).foldl (fairlead S tl) m)
  exact ⟨h3.1.trans h2.1, h3.2.trans h2.2⟩

theorem machine_same (hw : World u S S') : Relate.Alike u.tim (Clear u) (machine S) (machine S') (Times u.len u.vel)
    (Times u.vel u.acc) (SameMem u S) where
  zero := ⟨fun _ _ => by simp [Prod.zero_eq_mk], fun _ => by simp [Prod.zero_eq_mk]⟩
  add a a' b b' ha hb := ⟨fun i j => by simp [ha.1 i j, hb.1 i j], fun i => by simp [ha.2 i, hb.2 i]⟩
  smul x a a' ha := ⟨fun i j => by simp [ha.1 i j, smul_comm x], fun i => by simp [ha.2 i, smul_comm x]⟩
  move x a a' b b' ha hb := by
    have h1 := u_tim (u := u)
    have e1 : u.tim * x * u.vel = u.len * x := by
      unfold Units.vel
      field_simp
    have e2 : u.tim * x * u.acc = u.vel * x := by
      unfold Units.vel Units.acc
      field_simp
    exact ⟨fun i j => by simp [ha.1 i j, hb.1 i j, smul_smul, e1, e2], fun i => by simp [ha.2 i, hb.2 i, smul_smul, e1, e2]⟩
  update t tl e e' m m' he h := update_same hw t tl he h
  rate m m' h hc := evals_same hw h hc
  eval m m' h hc := after_same hw h hc
  next m m' h := h
  okU t tl e m h := by
    have := update_rec (S := S) t tl e m
    unfold Clear at h ⊢
    change (∀ x ∈ (update S t tl e m).spans, _) ∧ ∀ x ∈ (update S t tl e m).bends, _ at h
    rw [this.1, this.2] at h
    exact h
  okE m h := ⟨fun x hx => h.1 x (.inl hx), fun x hx => h.2 x (.inl hx)⟩
  okN m h := h

theorem aux_same (relax : ℕ → ℕ → ℝ) (conv conv' : State × State → State × State → Bool) (fresh : ℕ ⊕ ℕ → Bool) :
    Relate.AuxAlike u.tim (auxOf relax conv fresh) (auxOf relax conv' fresh) (Times u.len u.vel) (Times u.vel u.acc) := by
  have h1 := u_tim (u := u)
  have e1 : ∀ x, u.tim * x * u.vel = u.len * x := fun x => by
    unfold Units.vel
    field_simp
  have e2 : ∀ x, u.tim * x * u.acc = u.vel * x := fun x => by
    unfold Units.vel Units.acc
    field_simp
  have nm : ∀ (ga be h : ℝ) (a b : V × V), newmarkPL ga be (u.vel • a.1, u.acc • a.2) (u.vel • b.1, u.acc • b.2) (u.tim * h) =
      (u.vel • (newmarkPL ga be a b h).1, u.acc • (newmarkPL ga be a b h).2) := by
    intro ga be h a b
    unfold newmarkPL
    apply Prod.ext <;> simp only [Units.vel, Units.acc]
    all_goals
      first
      | module
      | (ext k; simp only [Pi.add_apply, Pi.smul_apply, smul_eq_mul]; field_simp)
  have wl : ∀ (ta h : ℝ) (a b : V × V), wilsonPL (u.vel • a.1, u.acc • a.2) (u.vel • b.1, u.acc • b.2) (u.tim * ta) (u.tim * h) =
      (u.vel • (wilsonPL a b ta h).1, u.acc • (wilsonPL a b ta h).2) := by
    intro ta h a b
    unfold wilsonPL
    apply Prod.ext <;> simp only [Units.vel, Units.acc]
    all_goals
      first
      | module
      | (ext k; simp only [Pi.add_apply, Pi.smul_apply, smul_eq_mul]; field_simp)
  refine ⟨fun _ _ => rfl, ?_, ?_, ?_, ?_⟩
  · intro ga be a a' b b' h ha hb
    exact ⟨fun i j => by simp only [auxOf, ha.1, hb.1, nm], fun i => by simp only [auxOf, ha.2, hb.2, nm]⟩
  · intro a a' b b' ta h ha hb
    exact ⟨fun i j => by simp only [auxOf, ha.1, hb.1, wl], fun i => by simp only [auxOf, ha.2, hb.2, wl]⟩
  · intro a a' b b' ha hb
    refine ⟨fun i j => ?_, fun i => ?_⟩
    · simp only [auxOf]
      split_ifs
      · exact ha.1 i j
      · exact hb.1 i j
    · simp only [auxOf]
      split_ifs
      · exact ha.2 i
      · exact hb.2 i
  · intro x a a' b b' ha hb
    exact ⟨fun i j => by simp [auxOf, ha.1 i j, hb.1 i j, smul_smul, e1, e2, smul_sub],
      fun i => by simp [auxOf, ha.2 i, hb.2 i, smul_smul, e1, e2, smul_sub]⟩

theorem absSum_times (k : ℝ) (hk : 0 ≤ k) (x : V) : absSum (k • x) = k * absSum x := by
  unfold absSum
  simp only [Pi.smul_apply, smul_eq_mul, abs_mul, abs_of_nonneg hk]
  ring

/-- When Anderson's iteration ends, with a tolerance in the new units. -/
theorem conv_same (hw : World u S S') (n : ℕ → ℕ) (tol rel : ℝ) (relax : ℕ → ℕ → ℝ) (fresh : ℕ ⊕ ℕ → Bool) :
    Relate.Ends (auxOf relax (converged S n tol rel) fresh) (auxOf relax (converged S' n (u.acc * tol) rel) fresh)
      (Times u.vel u.acc) := by
  have e1 : ∀ a a' : State × State, Times u.vel u.acc a.1 a'.1 → Times u.vel u.acc a.2 a'.2 →
      residues S' n a' = u.acc * residues S n a := by
    intro a a' h1 h2
    unfold residues
    rw [hw.nl, hw.np, mul_add, Finset.mul_sum, Finset.mul_sum]
    congr 1
    · refine Finset.sum_congr rfl fun i _ => ?_
      rw [Finset.mul_sum]
      refine Finset.sum_congr rfl fun j _ => ?_
      rw [h1.1, h2.1, ← smul_sub, absSum_times _ u_acc.le]
    · refine Finset.sum_congr rfl fun i _ => ?_
      rw [h1.2, h2.2, ← smul_sub, absSum_times _ u_acc.le]
  have e2 : ndof S' n = ndof S n := by
    unfold ndof
    rw [hw.nl, hw.np]
  intro a a' b b' h1 h2 h3 h4
  show converged S' n _ _ a' b' = converged S n _ _ a b
  unfold converged
  dsimp only
  rw [decide_eq_decide, e1 a a' h1 h2, e1 b b' h3 h4, e2]
  have hp := u_acc (u := u)
  have c1 : ∀ x : ℝ, u.acc * x / (ndof S n : ℝ) = u.acc * (x / (ndof S n : ℝ)) := fun x => mul_div_assoc _ _ _
  rw [c1, c1, mul_div_mul_left _ _ hp.ne']
  have c2 : u.acc * (residues S n b / (ndof S n : ℝ)) < u.acc * tol ↔ residues S n b / (ndof S n : ℝ) < tol :=
    mul_lt_mul_iff_right₀ hp
  have c3 : u.acc * (residues S n a / (ndof S n : ℝ)) ≠ 0 ↔ residues S n a / (ndof S n : ℝ) ≠ 0 := by
    simp [hp.ne']
  rw [c2, c3]

/-- C108: a simulation in other units goes through the same states, call by call, with any scheme; Anderson's tolerance,
which is an acceleration, has to be converted like everything else. -/
theorem C108_simulation_partial (hw : World u S S') (relax : ℕ → ℕ → ℝ) (conv conv' : State × State → State × State → Bool)
    (fresh : ℕ ⊕ ℕ → Bool) (sc : Scheme ℝ)
    (hsc : NotAnderson sc ∨ ∃ n tol rel, conv = converged S n tol rel ∧ conv' = converged S' n (u.acc * tol) rel)
    (dtM0 : ℝ) (fuel : ℕ) (calls : List ((ℕ → V × V) × ℝ)) (s s' e : Sim ℝ State Mem) (h : SameSim u S s s')
    (he : calls.foldlM (call S (auxOf relax conv fresh) sc dtM0 fuel) s = some e) (ho : Clear u e.m) :
    ∃ e', (calls.map fun x => (fun i => (u.len • (x.1 i).1, u.vel • (x.1 i).2), u.tim * x.2)).foldlM
        (call S' (auxOf relax conv' fresh) sc (u.tim * dtM0) fuel) s' = some e' ∧ SameSim u S e e' := by
  obtain ⟨e', h1, h2⟩ := Relate.moored_same
    (C := fun x x' : ℕ → V × V => ∀ i, x' i = (u.len • (x i).1, u.vel • (x i).2)) u.tim_pos (machine_same hw)
    (aux_same relax conv conv' fresh)
    (by
      intro x x' m m' hx h
      refine ⟨h.t, h.line, h.pos, h.point, fun i => ?_, h.bad⟩
      simp only [initiate, hw.kind]
      split_ifs
      · exact hx i
      · exact h.ves i)
    (fun _ _ h => h) sc
    (by
      rcases hsc with hsc | ⟨n, tol, rel, rfl, rfl⟩
      · exact .inl hsc
      · exact .inr (conv_same hw n tol rel relax fresh)) rfl fuel calls
    (calls.map fun x => (fun i => (u.len • (x.1 i).1, u.vel • (x.1 i).2), u.tim * x.2))
    (by
      rw [List.forall₂_map_right_iff]
      exact List.forall₂_same.2 fun x _ => ⟨fun _ => rfl, rfl⟩) s s' e
    ⟨h.t, h.tl, h.n, fun k hk => hk ▸ h.r, h.rd, h.m⟩ he ho
  exact ⟨e', h1, h2.t, h2.tl, h2.n, h2.r 0 rfl, h2.rd, h2.m⟩

/-- C108: what a user sees at the end: times, positions, velocities, tensions and the forces on the points are the same
quantities in the new units. -/
theorem C108_seen_partial (hw : World u S S') (relax : ℕ → ℕ → ℝ) (conv conv' : State × State → State × State → Bool)
    (fresh : ℕ ⊕ ℕ → Bool) (sc : Scheme ℝ)
    (hsc : NotAnderson sc ∨ ∃ n tol rel, conv = converged S n tol rel ∧ conv' = converged S' n (u.acc * tol) rel)
    (dtM0 : ℝ) (fuel : ℕ) (calls : List ((ℕ → V × V) × ℝ)) (s s' e : Sim ℝ State Mem) (h : SameSim u S s s')
    (he : calls.foldlM (call S (auxOf relax conv fresh) sc dtM0 fuel) s = some e) (ho : Clear u (eval S e.m).2) :
    ∃ e', (calls.map fun x => (fun i => (u.len • (x.1 i).1, u.vel • (x.1 i).2), u.tim * x.2)).foldlM
        (call S' (auxOf relax conv' fresh) sc (u.tim * dtM0) fuel) s' = some e' ∧ e'.t = u.tim * e.t ∧
      (∀ k < S.nl, (∀ j, (e'.m.line k).r j = u.len • (e.m.line k).r j ∧ (e'.m.line k).rd j = u.vel • (e.m.line k).rd j) ∧
        fairTen (e'.m.line k) = (fairTen (e.m.line k)).map (u.force * ·)) ∧
      ∀ i < S.np, (e'.m.point i).r = u.len • (e.m.point i).r ∧ (e'.m.point i).rd = u.vel • (e.m.point i).rd ∧
        reported S' e'.m i = (reported S e.m i).map (u.force • ·) := by
  obtain ⟨e', h1, h2⟩ := C108_simulation_partial hw relax conv conv' fresh sc hsc dtM0 fuel calls s s' e h he
    ⟨fun x hx => ho.1 x (.inl hx), fun x hx => ho.2 x (.inl hx)⟩
  refine ⟨e', h1, h2.t, fun k hk => ⟨fun j => ?_, ?_⟩, fun i hi => ⟨?_, ?_, C108_force hw h2.m ho hi⟩⟩
  · rw [h2.m.line]
    exact ⟨rfl, rfl⟩
  · rw [h2.m.line]
    exact (C108_tension (i := 0) (clear_line hw h2.m ho hk) (sea_same hw h2.m k) (water_same hw h2.m k)).2.1
  · rw [h2.m.point]
    rfl
  · rw [h2.m.point]
    rfl

/-! ## Every system can be given in the new units -/

/-- The sea. -/
noncomputable def sea (u : Units) (e : Env) : Env where
  rho_w := u.dens * e.rho_w
  g := u.acc * e.g
  kb := u.force / u.len ^ 3 * e.kb
  cb := u.force / (u.vel * u.len ^ 2) * e.cb
  frictionCoefficient := e.frictionCoefficient
  fricDamp := u.force / u.vel * e.fricDamp
  statDynFricScale := e.statDynFricScale
  waterDepth := fun x y => u.len * e.waterDepth (x / u.len) (y / u.len)
  zeta := e.zeta
  U := e.U
  Ud := e.Ud
  pdyn := e.pdyn

/-- The system. -/
noncomputable def world (u : Units) (S : System) : System where
  nl := S.nl
  np := S.np
  kind := S.kind
  att := S.att
  sea := sea u S.sea
  kin t x := (u.len * (S.kin (t / u.tim) (u.len⁻¹ • x)).1, u.vel • (S.kin (t / u.tim) (u.len⁻¹ • x)).2.1,
    u.acc • (S.kin (t / u.tim) (u.len⁻¹ • x)).2.2.1, u.stress * (S.kin (t / u.tim) (u.len⁻¹ • x)).2.2.2)

/-- The start. -/
noncomputable def sim (u : Units) (s : Sim ℝ State Mem) : Sim ℝ State Mem where
  t := u.tim * s.t
  tl := u.tim * s.tl
  n := s.n
  r k := (fun i j => (u.len • ((s.r k).1 i j).1, u.vel • ((s.r k).1 i j).2), fun i => (u.len • ((s.r k).2 i).1, u.vel • ((s.r k).2 i).2))
  rd k := (fun i j => (u.vel • ((s.rd k).1 i j).1, u.acc • ((s.rd k).1 i j).2), fun i => (u.vel • ((s.rd k).2 i).1, u.acc • ((s.rd k).2 i).2))
  m := { t := u.tim * s.m.t
         line := fun i => line u (s.m.line i)
         point := fun i => point u (s.m.point i)
         ves := fun i => (u.len • (s.m.ves i).1, u.vel • (s.m.ves i).2)
         bad := s.m.bad
         edge := s.m.edge }

theorem C108_world (u : Units) (S : System) (hS : ∀ i < S.np, ∀ a ∈ S.att i, a.1 < S.nl) : World u S (world u S) := by
  have h0 := u_len (u := u)
  have h1 := u_tim (u := u)
  refine ⟨rfl, rfl, rfl, rfl, hS, ⟨rfl, rfl, rfl, rfl, rfl, rfl, rfl, ?_⟩, ?_⟩
  · intro x y
    simp only [world, sea]
    rw [mul_div_cancel_left₀ _ h0, mul_div_cancel_left₀ _ h0]
  · intro t x
    simp only [world]
    rw [mul_div_cancel_left₀ _ h1, inv_smul_smul₀ h0]

theorem C108_start (u : Units) (S : System) (s : Sim ℝ State Mem) (hs : ∀ i < S.nl, 1 ≤ (s.m.line i).N) : SameSim u S s (sim u s) :=
  ⟨rfl, rfl, rfl, ⟨fun _ _ => rfl, fun _ => rfl⟩, fun _ => ⟨fun _ _ => rfl, fun _ => rfl⟩,
    ⟨rfl, fun _ => rfl, hs, fun _ => rfl, fun _ => rfl, Iff.rfl⟩⟩

/-! ## When a number is taken for zero -/

/-- Lengths and curvatures that are taken for zero are below 1.2e-14, in any units. -/
theorem near_zero (x : ℝ) (hx : 0 ≤ x) : EqualRealNos x 0 ↔ x ≤ 50 / 2 ^ 52 := by
  unfold EqualRealNos eps
  rw [sub_zero, add_zero, abs_of_nonneg hx]
  rcases le_total x 1 with h | h
  · rw [max_eq_right h]
    constructor <;> intro hh <;> norm_num at hh ⊢ <;> linarith
  · rw [max_eq_left h]
    constructor <;> intro hh <;> norm_num at hh ⊢ <;> nlinarith

/-- C108: it is enough that no two neighbouring nodes come closer than 1.2e-14, and that no line is bent less than
that, but for straight lines. -/
theorem C108_clear (u : Units) (m : Mem) (h1 : ∀ x ∈ m.spans, 50 / 2 ^ 52 < x ∧ 50 / 2 ^ 52 < u.len * x)
    (h2 : ∀ x ∈ m.bends, x = 0 ∨ 50 / 2 ^ 52 < x ∧ 50 / 2 ^ 52 < x / u.len) : Clear u m := by
  have key : ∀ x : ℝ, 50 / 2 ^ 52 < x → ¬ EqualRealNos x 0 := by
    intro x hx
    rw [near_zero x (le_trans (by norm_num) hx.le)]
    exact not_le.2 hx
  refine ⟨fun x hx => ⟨key _ (h1 x hx).1, key _ (h1 x hx).2⟩, fun x hx => ?_⟩
  rcases h2 x hx with rfl | ⟨h3, h4⟩
  · rw [zero_div]
  · exact iff_of_false (key _ h4) (key _ h3)

/-! ## Model tests -/

/-- Froude's law: a model whose lengths are `x` times those of the prototype. -/
noncomputable def froude (x : ℝ) (hx : 0 < x) : Units := ⟨x, Real.sqrt x, x ^ 3, hx, Real.sqrt_pos.2 hx, pow_pos hx 3⟩

/-- In the model gravity and density are the same, and with them accelerations. -/
theorem froude_same (x : ℝ) (hx : 0 < x) : (froude x hx).acc = 1 ∧ (froude x hx).dens = 1 ∧ (froude x hx).vel = Real.sqrt x ∧
    (froude x hx).force = x ^ 3 ∧ (froude x hx).stress = x := by
  have h1 : Real.sqrt x ^ 2 = x := Real.sq_sqrt hx.le
  have h2 : Real.sqrt x ≠ 0 := (Real.sqrt_pos.2 hx).ne'
  have h3 : x ≠ 0 := hx.ne'
  simp only [froude, Units.acc, Units.dens, Units.vel, Units.force, Units.stress, h1]
  refine ⟨div_self h3, div_self (pow_ne_zero 3 h3), ?_, ?_, ?_⟩
  · rw [div_eq_iff h2, Real.mul_self_sqrt hx.le]
  · field_simp
  · field_simp

/-- C108: the forces in a model test in the same fluid are the cube of the scale times those of the prototype, with
every scheme, Anderson's included. -/
theorem C108_froude_partial (x : ℝ) (hx : 0 < x) (hS : ∀ i < S.np, ∀ a ∈ S.att i, a.1 < S.nl) (relax : ℕ → ℕ → ℝ)
    (n : ℕ → ℕ) (tol rel : ℝ) (fresh : ℕ ⊕ ℕ → Bool) (sc : Scheme ℝ) (dtM0 : ℝ) (fuel : ℕ) (calls : List ((ℕ → V × V) × ℝ))
    (s e : Sim ℝ State Mem) (hs : ∀ i < S.nl, 1 ≤ (s.m.line i).N)
    (he : calls.foldlM (call S (auxOf relax (converged S n tol rel) fresh) sc dtM0 fuel) s = some e)
    (ho : Clear (froude x hx) (eval S e.m).2) :
    (world (froude x hx) S).sea.g = S.sea.g ∧ (world (froude x hx) S).sea.rho_w = S.sea.rho_w ∧
    ∃ e', (calls.map fun y => (fun i => (x • (y.1 i).1, Real.sqrt x • (y.1 i).2), Real.sqrt x * y.2)).foldlM
        (call (world (froude x hx) S) (auxOf relax (converged (world (froude x hx) S) n tol rel) fresh) sc (Real.sqrt x * dtM0) fuel)
        (sim (froude x hx) s) = some e' ∧
      (∀ k < S.nl, fairTen (e'.m.line k) = (fairTen (e.m.line k)).map (x ^ 3 * ·)) ∧
      ∀ i < S.np, (e'.m.point i).r = x • (e.m.point i).r ∧
        reported (world (froude x hx) S) e'.m i = (reported S e.m i).map (x ^ 3 • ·) := by
  obtain ⟨f1, f2, f3, f4, -⟩ := froude_same x hx
  obtain ⟨e', h1, -, h3, h4⟩ := C108_seen_partial (C108_world (froude x hx) S hS) relax (converged S n tol rel)
    (converged (world (froude x hx) S) n tol rel) fresh sc (.inr ⟨n, tol, rel, rfl, by rw [f1, one_mul]⟩) dtM0 fuel calls s
    (sim (froude x hx) s) e (C108_start _ S s hs) he ho
  rw [f3] at h1
  rw [f4] at h3 h4
  refine ⟨?_, ?_, e', h1, fun k hk => (h3 k hk).2, fun i hi => ⟨(h4 i hi).1, (h4 i hi).2.2⟩⟩
  · simp only [world, sea, f1, one_mul]
  · simp only [world, sea, f2, one_mul]

/-- C108: the length of a wave of given frequency is the same in all units. -/
theorem C108_wave (u : Units) (omega g h : ℝ) :
    Waves.waveNumber (omega / u.tim) (u.acc * g) (u.len * h) = Waves.waveNumber omega g h / u.len := by
  have h0 := u_len (u := u)
  have h1 := u_tim (u := u)
  have e1 : omega / u.tim * (omega / u.tim) * (u.len * h) / (u.acc * g) = omega * omega * h / g := by
    unfold Units.acc
    by_cases hg : g = 0
    · simp [hg]
    · field_simp
  have e2 : omega / u.tim = 0 ↔ omega = 0 := by simp [h1]
  have e3 : omega / u.tim < 0 ↔ omega < 0 := by
    rw [div_neg_iff]
    have := u.tim_pos
    constructor
    · rintro (⟨_, h2⟩ | ⟨h2, _⟩)
      · linarith
      · exact h2
    · exact fun h2 => .inr ⟨h2, this⟩
  unfold Waves.waveNumber
  rw [e1]
  simp only [e2, e3]
  by_cases hz : omega = 0
  · rw [if_pos hz, if_pos hz, zero_div]
  · rw [if_neg hz, if_neg hz]
    have e4 : ∀ y : ℝ, y / (u.len * h) = y / h / u.len := fun y => by rw [mul_comm, ← div_div]
    rw [e4]
    split_ifs
    · rw [neg_div]
    · rfl

/-! ## Examples -/

/-- A taut line between two points. -/
noncomputable def taut : System where
  nl := 1
  np := 2
  kind i := if i = 0 then .FIXED else .COUPLED
  att i := [(0, if i = 0 then .BOTTOM else .TOP)]
  sea := Rods.still
  kin _ _ := (0, 0, 0, 0)

/-- A rope of 9 m, stretched to 10 m. -/
noncomputable def rope : Line :=
  ⟨1, 1 / 10, 1 / 100, 1000, 10 ^ 9, 10 ^ 6, 0, 1, 0, 1, 0, none, none, none, false, fun _ => 9, fun _ => 9 / 100,
    fun j => ![0, 0, 10 * (j : ℝ) - 50], fun _ => 0, .PINNED, .PINNED, 0, 0, fun _ => 0, false⟩

/-- The rope before the first call. -/
noncomputable def moored : Mem where
  t := 0
  line _ := rope
  point _ := ⟨0, 0, 0, 0, 0, 0, 0, 0, []⟩
  ves _ := 0
  bad := False
  edge := False

theorem rope_len (j : ℕ) : lstr rope j = 10 := by
  unfold lstr unitvector Mooring.norm
  simp only [rope]
  have : (![0, 0, 10 * ((j + 1 : ℕ) : ℝ) - 50] - ![0, 0, 10 * (j : ℝ) - 50] : V) = ![0, 0, 10] := by
    ext k
    fin_cases k <;> simp
    ring
  rw [this]
  simp [dotProduct, Fin.sum_univ_three]

/-- In millimetres, hours and tons nothing is taken for zero. -/
theorem rope_clear : Clear ⟨1000, 1 / 3600, 1 / 1000, by norm_num, by norm_num, by norm_num⟩ (eval taut moored).2 := by
  refine C108_clear _ _ ?_ ?_
  · rintro x (hx | ⟨i, j, -, ⟨-, hx⟩ | ⟨h1, h2, -⟩⟩)
    · exact absurd hx (Set.notMem_empty x)
    · rw [hx]
      show _ < lstr rope j ∧ _ < 1000 * lstr rope j
      rw [rope_len]
      norm_num
    · have : j < 1 := h2
      omega
  · rintro x (hx | ⟨i, j, -, -, hx⟩)
    · exact absurd hx (Set.notMem_empty x)
    · left
      rw [hx, Reverse.Kurv_eq, if_neg]
      rintro (h | h)
      · rcases h with h | h
        · exact lt_irrefl _ h
        · exact absurd h (by simp [moored, rope])
      · exact absurd h (by simp [moored, rope])

/-- The force on its upper end in those units. -/
example (s : Sim ℝ State Mem) (hs : s.m = moored) :
    reported (world ⟨1000, 1 / 3600, 1 / 1000, by norm_num, by norm_num, by norm_num⟩ taut)
      (sim ⟨1000, 1 / 3600, 1 / 1000, by norm_num, by norm_num, by norm_num⟩ s).m 1 =
      (reported taut moored 1).map ((3600 ^ 2 : ℝ) • ·) := by
  have hw := C108_world ⟨1000, 1 / 3600, 1 / 1000, by norm_num, by norm_num, by norm_num⟩ taut (fun i _ a ha => by
    simp only [taut, List.mem_singleton] at ha ⊢
    rw [ha]
    exact one_pos)
  have := C108_force hw (C108_start _ taut s (fun i _ => by rw [hs]; exact le_rfl)).m (hs ▸ rope_clear) (i := 1) (by simp [taut])
  rw [this, hs]
  congr 1
  funext f
  simp only [Units.force]
  norm_num

/-! ## Where it fails -/

/-- Two nodes 1e-15 m apart. -/
noncomputable def short : Line := { rope with E := 1, A := 1, l := fun _ => 5 / 10 ^ 16, r := fun j => ![(j : ℝ) / 10 ^ 15, 0, 0] }

/-- Very short segments: the direction is divided by the length only if the length is more than about 1e-14, in whatever
units it is given, so the tension depends on the units. -/
theorem C108_short_false : T (line ⟨10 ^ 15, 1, 1, by norm_num, one_pos, one_pos⟩ short) 0 ≠
    (⟨10 ^ 15, 1, 1, by norm_num, one_pos, one_pos⟩ : Units).force • T short 0 := by
  have n1 : Mooring.norm (![1 / 10 ^ 15, 0, 0] : V) = 1 / 10 ^ 15 := by
    unfold Mooring.norm
    simp only [dotProduct, Fin.sum_univ_three]
    simp
  have v1 : ((short.r 1) - (short.r 0) : V) = ![1 / 10 ^ 15, 0, 0] := by
    ext k
    fin_cases k <;> simp [short]
  have v2 : (((line ⟨10 ^ 15, 1, 1, by norm_num, one_pos, one_pos⟩ short).r 1) -
      ((line ⟨10 ^ 15, 1, 1, by norm_num, one_pos, one_pos⟩ short).r 0) : V) = ![1, 0, 0] := by
    ext k
    fin_cases k <;> simp [line, short]
  have n2 : Mooring.norm (![1, 0, 0] : V) = 1 := by
    unfold Mooring.norm
    simp [dotProduct, Fin.sum_univ_three]
  have q1 : unitvector (short.r 0) (short.r 1) = (![1 / 10 ^ 15, 0, 0], 1 / 10 ^ 15) := by
    unfold unitvector
    dsimp only
    rw [v1, n1, if_pos ((near_zero _ (by norm_num)).2 (by norm_num))]
  have q2 : unitvector ((line ⟨10 ^ 15, 1, 1, by norm_num, one_pos, one_pos⟩ short).r 0)
      ((line ⟨10 ^ 15, 1, 1, by norm_num, one_pos, one_pos⟩ short).r 1) = (![1, 0, 0], 1) := by
    unfold unitvector
    dsimp only
    rw [v2, n2, if_neg (fun hc => absurd ((near_zero 1 zero_le_one).1 hc) (by norm_num))]
    simp
  have t1 : T short 0 = ![1 / 10 ^ 15, 0, 0] := by
    unfold T lstr qs getNonlinearE
    rw [zero_add, q1]
    simp [short, rope]
    norm_num
  have t2 : T (line ⟨10 ^ 15, 1, 1, by norm_num, one_pos, one_pos⟩ short) 0 = ![10 ^ 15, 0, 0] := by
    unfold T lstr qs getNonlinearE
    rw [zero_add, q2]
    simp [short, rope, line, Units.stress]
    norm_num
  rw [t1, t2]
  intro hc
  have := congrFun hc 0
  simp [Units.force] at this
  norm_num at this

/-- Anderson's scheme: its tolerance is a number in the units of acceleration that does not change with the units (here
0.01), so that in other units, here millimetres, it may go on longer. -/
theorem C108_anderson_false : ∃ (u : Units) (a : V), u.tim = 1 ∧
    ((stepOf (Frame.pulled (u.acc • a)) Frame.andAux (.anderson 2 1) 1 ⟨0, 0, fun _ => 0, fun _ => 0, 0, 0⟩).r 0).2 ≠
      u.vel • ((stepOf (Frame.pulled a) Frame.andAux (.anderson 2 1) 1 ⟨0, 0, fun _ => 0, fun _ => 0, 0, 0⟩).r 0).2 := by
  refine ⟨⟨1000, 1, 1, by norm_num, one_pos, one_pos⟩, ![1 / 100, 0, 0], rfl, ?_⟩
  intro h
  have h0 := congrFun h 0
  simp [stepOf, anderson, andLoop, upd, clc, setR, setRd, addT, fin, Function.update_apply, Frame.pulled, Frame.andAux,
    Frame.meanAbs, firstRes, mix, Units.acc, Units.vel] at h0
  norm_num at h0

end system

end MD.Units
