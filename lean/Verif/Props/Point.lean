import Verif.Model.Body
import Verif.Lemmas.Rod
import Verif.Props.LineForces
import Mathlib.Algebra.BigOperators.Group.List.Basic
import Mathlib.Data.List.FinRange
import Mathlib.Algebra.BigOperators.Fin

/-!
# Points: force balance (C40), drag (C32)
-/

set_option linter.unusedSimpArgs false
set_option linter.unusedVariables false

namespace MD.Bodies

open Matrix MD.Mat MD.Rot MD.Mooring MD.Rods Finset

/-! ## Specification -/

/-- Quadratic drag with drag area `CdA` in a relative flow `v` -/
noncomputable def quadDrag (rho CdA : ℝ) (v : V) : V := (1 / 2 * rho * CdA * Mooring.norm v) • v

/-- Forces on a point other than those of lines: applied force, weight, buoyancy, drag -/
noncomputable def pointLoads (p : Point) (rho_w g : ℝ) : V :=
  p.pointF + ![0, 0, -(p.pointM * g)] + ![0, 0, rho_w * g * p.pointV]
    + quadDrag rho_w p.pointCdA (p.U - p.rd)

/-! ## Lemmas -/

theorem pointLoop_eq (l : List (V × V × M3 ℝ)) (acc : V × M3 ℝ) :
    pointLoop l acc
      = (acc.1 + (l.map fun a => a.1).sum, acc.2 + (l.map fun a => a.2.2).sum) := by
  induction l generalizing acc with
  | nil => simp [pointLoop]
  | cons a l ih =>
    rw [pointLoop, ih]
    simp only [List.map_cons, List.sum_cons, add_assoc]

/-- `dir * vi.squaredNorm()` is `vi` times its norm -/
theorem sq_normalized (u : V) : (u ⬝ᵥ u) • normalized u = Mooring.norm u • u := by
  unfold normalized
  have h := norm_sq u
  by_cases hu : 0 < u ⬝ᵥ u
  · rw [if_pos hu, smul_smul, ← h]
    have hn : Mooring.norm u ≠ 0 := by
      intro h0
      rw [← h, h0] at hu
      norm_num at hu
    congr 1
    field_simp
  · rw [if_neg hu]
    have h0 : u ⬝ᵥ u = 0 := by
      have : 0 ≤ u ⬝ᵥ u := by rw [← h]; positivity
      linarith
    have h1 : Mooring.norm u = 0 := by
      rw [h0] at h
      exact pow_eq_zero_iff (n := 2) (by norm_num) |>.1 h
    rw [h0, h1]

/-! ## C40 -/

/-- C40: the net force on a point is what the attached line ends pull plus applied force, weight,
buoyancy and drag. -/
theorem C40_net_force (p : Point) (rho_w g : ℝ) :
    (p.doRHS rho_w g).1 = (p.attached.map fun a => a.1).sum + pointLoads p rho_w g := by
  unfold Point.doRHS pointLoads quadDrag
  simp only [pointLoop_eq]
  have h := sq_normalized (p.U - p.rd)
  have e1 : (1 / 2 * rho_w * ((p.U - p.rd) ⬝ᵥ (p.U - p.rd)) * p.pointCdA) • normalized (p.U - p.rd)
      = (1 / 2 * rho_w * p.pointCdA * Mooring.norm (p.U - p.rd)) • (p.U - p.rd) := by
    rw [mul_right_comm _ _ p.pointCdA, mul_smul, h, smul_smul]
  have e2 : (![0, 0, g * (p.pointV * rho_w - p.pointM)] : V)
      = ![0, 0, -(p.pointM * g)] + ![0, 0, rho_w * g * p.pointV] := by
    funext k
    fin_cases k <;> simp
    ring
  rw [e1, e2]
  abel

/-- C40: the mass is that of the point, the added mass, and the mass of the line ends. -/
theorem C40_mass (p : Point) (rho_w g : ℝ) :
    (p.doRHS rho_w g).2 = (p.attached.map fun a => a.2.2).sum
      + (p.pointM + p.pointCa * (rho_w * p.pointV)) • (1 : M3 ℝ) := by
  unfold Point.doRHS
  simp only [pointLoop_eq]
  rw [add_smul, show p.pointV * rho_w * p.pointCa = p.pointCa * (rho_w * p.pointV) by ring]
  abel

/-- C40: the order in which the lines are attached is irrelevant. -/
theorem C40_order (p : Point) {l : List (V × V × M3 ℝ)} (h : l.Perm p.attached) (rho_w g : ℝ) :
    ({ p with attached := l } : Point).doRHS rho_w g = p.doRHS rho_w g := by
  have h1 := (h.map fun a => a.1).sum_eq
  have h2 := (h.map fun a => a.2.2).sum_eq
  refine Prod.ext ?_ ?_
  · rw [C40_net_force, C40_net_force]
    simp only [h1]
    rfl
  · rw [C40_mass, C40_mass]
    simp only [h2]

/-- C40: a free point moves by Newton's second law with the masses of the line ends: mass times
acceleration is the net force. -/
theorem C40_newton (p : Point) (rho_w g : ℝ) (a : V) (h : p.acc rho_w g a) :
    (p.pointM + p.pointCa * (rho_w * p.pointV)) • a + (p.attached.map fun x => x.2.2).sum *ᵥ a
      = (p.attached.map fun x => x.1).sum + pointLoads p rho_w g := by
  unfold Point.acc at h
  rw [C40_net_force, C40_mass, Matrix.add_mulVec, Matrix.smul_mulVec, Matrix.one_mulVec] at h
  rw [add_comm, h]

/-! ### A network of points and lines -/

/-- The ends of the lines which are attached to point `k`: force, moment and mass they report.
`pA` and `pB` say at which point the lines start (end A, node 0) and end (end B). -/
noncomputable def endsAt {n : ℕ} {P : Type} [DecidableEq P] (stuff : Fin n → EndPt → V × V × M3 ℝ)
    (pA pB : Fin n → P) (k : P) : List (V × V × M3 ℝ) :=
  (List.finRange n).flatMap fun j =>
    (if pA j = k then [stuff j .BOTTOM] else []) ++ (if pB j = k then [stuff j .TOP] else [])

theorem endsAt_sum {n : ℕ} {P : Type} [DecidableEq P] (stuff : Fin n → EndPt → V × V × M3 ℝ)
    (pA pB : Fin n → P) (k : P) :
    ((endsAt stuff pA pB k).map fun a => a.1).sum
      = ∑ j, ((if pA j = k then (stuff j .BOTTOM).1 else 0)
          + (if pB j = k then (stuff j .TOP).1 else 0)) := by
  unfold endsAt
  rw [List.map_flatMap]
  have : ∀ l : List (Fin n), ((l.flatMap fun j => List.map (fun a => a.1)
      ((if pA j = k then [stuff j .BOTTOM] else []) ++ (if pB j = k then [stuff j .TOP] else []))).sum : V)
      = (l.map fun j => (if pA j = k then (stuff j .BOTTOM).1 else 0)
          + (if pB j = k then (stuff j .TOP).1 else 0)).sum := by
    intro l
    induction l with
    | nil => rfl
    | cons j l ih =>
      rw [List.flatMap_cons, List.sum_append, ih, List.map_cons, List.sum_cons]
      congr 1
      split_ifs <;> simp
  rw [this, ← List.ofFn_eq_map, List.sum_ofFn]

/-- C40, for a whole mooring system: whatever the lines and points and the order in which they are
attached, the net forces on all points and on all inner nodes of the lines add up to the external
forces: loads of the points; weight, buoyancy, drag, inertia and seabed forces of the lines. What
the lines pull at the points is what the points pull at the lines. -/
theorem C40_network {n : ℕ} {P : Type} [Fintype P] [DecidableEq P] (line : Fin n → Line)
    (env : Fin n → Env) (pA pB : Fin n → P) (point : P → Point)
    (rho_w g : ℝ) (f : Fin n → ℕ → V)
    (hN : ∀ j, 1 ≤ (line j).N) (hP : ∀ j, (line j).isPb = false)
    (hf : ∀ j, ∀ i ≤ (line j).N, Mooring.Fnet (line j) (env j) i = some (f j i))
    (stuff : Fin n → EndPt → V × V × M3 ℝ)
    (hs : ∀ j p, getEndStuff (line j) (env j) p = some (stuff j p))
    (hatt : ∀ k, (point k).attached.Perm (endsAt stuff pA pB k)) :
    ∑ k, ((point k).doRHS rho_w g).1 + ∑ j, ∑ i ∈ Ico 1 (line j).N, f j i
      = ∑ k, pointLoads (point k) rho_w g
        + ∑ j, ∑ i ∈ range ((line j).N + 1), (Mooring.W (line j) (env j) i
            + (Mooring.Dp (line j) (env j) i + Mooring.Dq (line j) (env j) i)
            + (Mooring.Ap (line j) (env j) i + Mooring.Aq (line j) (env j) i)
            + Mooring.B (line j) (env j) i) := by
  have hA : ∀ j, (stuff j .BOTTOM).1 = f j 0 := by
    intro j
    have h := hs j .BOTTOM
    unfold getEndStuff at h
    simp only [hf j 0 (Nat.zero_le _)] at h
    have h := Option.some.inj h
    rw [← h]
  have hB : ∀ j, (stuff j .TOP).1 = f j (line j).N := by
    intro j
    have h := hs j .TOP
    unfold getEndStuff at h
    simp only [hf j _ (le_refl _)] at h
    have h := Option.some.inj h
    rw [← h]
  have h1 : ∀ k, ((point k).doRHS rho_w g).1
      = ∑ j, ((if pA j = k then f j 0 else 0) + (if pB j = k then f j (line j).N else 0))
        + pointLoads (point k) rho_w g := by
    intro k
    rw [C40_net_force, ((hatt k).map fun a => a.1).sum_eq, endsAt_sum]
    simp only [hA, hB]
  rw [sum_congr rfl fun k _ => h1 k, sum_add_distrib, sum_comm, add_right_comm, add_comm]
  congr 1
  rw [← sum_add_distrib]
  apply sum_congr rfl
  intro j _
  rw [← C29_net_force (line j) (env j) (hN j) (hP j) (f j) (hf j), sum_add_distrib, sum_ite_eq,
    sum_ite_eq, if_pos (mem_univ _), if_pos (mem_univ _), range_eq_Ico,
    sum_eq_sum_Ico_succ_bot (Nat.succ_pos _), zero_add, sum_Ico_succ_top (hN j)]
  abel

/-! ## C32: drag -/

/-- C32: the drag of a point follows the relative flow. -/
theorem C32_point_drag (rho CdA : ℝ) (h1 : 0 ≤ rho) (h2 : 0 ≤ CdA) (v : V) :
    0 ≤ quadDrag rho CdA v ⬝ᵥ v := by
  unfold quadDrag
  rw [smul_dotProduct, smul_eq_mul, ← norm_sq]
  have := Mooring.norm_nonneg v
  positivity

/-- C32: the force which the code adds for a moving point is that drag, so it never feeds energy
into the point relative to the water: force with flow minus force without. -/
theorem C32_point_drag_power (p : Point) (rho_w g : ℝ) (h1 : 0 ≤ rho_w) (h2 : 0 ≤ p.pointCdA) :
    0 ≤ ((p.doRHS rho_w g).1 - (({ p with U := p.rd } : Point).doRHS rho_w g).1)
      ⬝ᵥ (p.U - p.rd) := by
  have h0 : quadDrag rho_w p.pointCdA 0 = 0 := by simp [quadDrag]
  rw [C40_net_force, C40_net_force]
  unfold pointLoads
  simp only [sub_self, h0, add_zero]
  rw [show ∀ a b c : V, a + (b + c) - (a + b) = c by intro a b c; abel]
  exact C32_point_drag _ _ h1 h2 _

/-! ## Examples -/

/-- A clump weight of 200 kg and 0.1 m³ in a current of 1 m/s with two line ends -/
noncomputable def clump : Point where
  pointM := 200
  pointV := 1 / 10
  pointF := 0
  pointCdA := 2
  pointCa := 1
  r := ![0, 0, -50]
  rd := 0
  U := ![1, 0, 0]
  attached := [(![10, 0, 500], 0, (3 : ℝ) • (1 : M3 ℝ)), (![-20, 0, 1500], 0, (4 : ℝ) • (1 : M3 ℝ))]

/-- Its net force: the pull of the lines, 1000 N of water, 2000 N of weight and 1000 N of drag. -/
example : (clump.doRHS 1000 10).1 = ![990, 0, 1000] := by
  have hn : Mooring.norm (![1, 0, 0] : V) = 1 :=
    norm_eq _ 1 (by norm_num) (by simp [dotProduct, Fin.sum_univ_three])
  rw [C40_net_force]
  simp only [clump, pointLoads, quadDrag, sub_zero, hn]
  funext k
  fin_cases k <;> simp <;> norm_num

example : (clump.doRHS 1000 10).2 = (307 : ℝ) • (1 : M3 ℝ) := by
  rw [C40_mass]
  simp only [clump, List.map_cons, List.map_nil, List.sum_cons, List.sum_nil]
  ext i j
  fin_cases i <;> fin_cases j <;> simp <;> norm_num

/-- A line between two points, or a closed loop on one point: the elbow of `LineForces`, which has
forces on all nodes -/
example : ∃ (f : Fin 1 → ℕ → V) (stuff : Fin 1 → EndPt → V × V × M3 ℝ) (point : Fin 2 → Point),
    (∀ j : Fin 1, ∀ i ≤ elbow.N, Mooring.Fnet elbow vacuum i = some (f j i)) ∧
    (∀ (j : Fin 1) p, getEndStuff elbow vacuum p = some (stuff j p)) ∧
    ∀ k, (point k).attached.Perm (endsAt stuff (fun _ => 0) (fun _ => 1) k) := by
  obtain ⟨f, hf⟩ := elbow_defined elbow rfl vacuum
  let stuff : Fin 1 → EndPt → V × V × M3 ℝ := fun _ p =>
    match p with
    | .TOP => (f elbow.N, 0, Mooring.M elbow vacuum elbow.N)
    | .BOTTOM => (f 0, 0, Mooring.M elbow vacuum 0)
  refine ⟨fun _ => f, stuff,
    fun k => { clump with attached := endsAt stuff (fun _ => 0) (fun _ => 1) k },
    fun _ i hi => hf i hi, fun _ p => ?_, fun k => List.Perm.refl _⟩
  cases p
  · unfold getEndStuff
    simp only [hf _ (le_refl _)]
    rfl
  · unfold getEndStuff
    simp only [hf _ (Nat.zero_le _)]
    rfl

end MD.Bodies
