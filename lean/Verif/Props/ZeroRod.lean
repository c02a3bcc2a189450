import Verif.Model.ZeroRod
import Verif.Props.LineForces
import Verif.Props.Rod
import Mathlib.LinearAlgebra.Matrix.DotProduct

/-!
# Property C83: zero-length rods join and clamp cables
-/

set_option linter.unusedSimpArgs false
set_option linter.unusedVariables false

namespace MD.Rods.Zero

open MD.Mat MD.Mooring MD.Rods Matrix Finset

/-! ## Nothing is added -/

theorem q0_zero (A B : V) : q0 0 A B = 0 := if_pos rfl

theorem ownAxis_zero (Or : M3 ℝ) (A B : V) : ownAxis Or 0 A B = 0 := by
  unfold ownAxis
  rw [q0_zero, mulVec_zero]

/-- A rod of no segments: only its end effects are left. -/
theorem Fnet_zero {R : Rod} {e : Env} (hN : R.N = 0) (phi beta : ℝ) :
    Fnet R e phi beta 0 = Dq R e phi 0 + Aq R e phi 0 + lineF R 0 := by
  have h1 : W R e 0 = 0 := by unfold W; rw [if_pos hN]
  have h2 := C35_zero_length (R := R) (e := e) hN phi beta
  have h3 : Dp R e phi 0 = 0 := by unfold Dp; rw [if_pos hN]
  have h4 : Ap R e phi 0 = 0 := by unfold Ap; rw [if_pos hN]
  have h5 : B R e 0 = 0 := by unfold B; rw [if_pos hN]
  have h6 : Pd R e phi 0 = 0 := by
    unfold Pd
    by_cases hw : endWet R e phi 0
    · rw [if_pos ⟨rfl, hw⟩, if_pos ⟨hN.symm, hw⟩, ← add_smul]
      have : vof R e phi 0 * area R * e.pdyn 0 + -vof R e phi 0 * area R * e.pdyn 0 = 0 := by ring
      rw [this, zero_smul]
    · rw [if_neg (fun h => hw h.2), if_neg (fun h => hw h.2), add_zero]
  unfold Fnet
  rw [h1, h2, h3, h4, h5, h6]
  simp

theorem lineF_zero {R : Rod} (hN : R.N = 0) :
    lineF R 0 = (R.attachedA.map fun a => a.1).sum + (R.attachedB.map fun a => a.1).sum := by
  unfold lineF
  rw [if_pos rfl, if_pos hN.symm]

theorem lineM_zero {R : Rod} (hN : R.N = 0) :
    lineM R 0 = (R.attachedA.map fun a => a.2.2).sum + (R.attachedB.map fun a => a.2.2).sum := by
  unfold lineM
  rw [if_pos rfl, if_pos hN.symm]

theorem Mext_zero {R : Rod} {e : Env} (hN : R.N = 0) (phi beta : ℝ) :
    Mext R e phi beta = MextLine R := by
  have h1 : MextCap R e phi beta = 0 := by
    unfold MextCap
    simp only [hN]
    by_cases hw : endWet R e phi 0
    · rw [if_pos hw, if_pos (by rw [hN]; exact hw)]
      ext k; fin_cases k <;> simp
    · rw [if_neg hw, if_neg (by rw [hN]; exact hw), add_zero]
  have h2 : MextWater R e phi beta = 0 := by
    unfold MextWater
    rw [hN, if_neg (by rintro ⟨h, h'⟩; linarith)]
  unfold Mext
  rw [h1, h2, zero_add, zero_add]

theorem m_zero {R : Rod} (hN : R.N = 0) : m R 0 = 0 := by
  unfold m dL l
  rw [if_pos rfl, if_pos hN]
  ring

/-- Forces and mass of a rod of no segments whose end effects vanish. -/
theorem only_lines {R : Rod} {e : Env} (hN : R.N = 0) (phi beta : ℝ)
    (hD : Dq R e phi 0 + Aq R e phi 0 = 0) (hM : addedM R e phi 0 = 0) :
    F6net R e phi beta =
      ((R.attachedA.map fun a => a.1).sum + (R.attachedB.map fun a => a.1).sum,
       (R.attachedA.map fun a => a.2.1).sum + (R.attachedB.map fun a => a.2.1).sum) ∧
    M6net R e phi beta = some (fromBlocks
      ((R.attachedA.map fun a => a.2.2).sum + (R.attachedB.map fun a => a.2.2).sum) 0 0 0) := by
  constructor
  · unfold F6net
    rw [hN, zero_add, sum_range_one, sum_range_one, Fnet_zero hN, hD, zero_add, lineF_zero hN,
      Mext_zero hN, sub_self, LinearMap.map_zero, LinearMap.zero_apply, zero_add]
    rfl
  · unfold M6net inertiaCorrection
    rw [if_pos hN, hN, zero_add, sum_range_one, sub_self]
    simp only [Option.map_some, Option.some.injEq]
    unfold M
    rw [m_zero hN, hM, lineM_zero hN, zero_smul, zero_add, zero_add]
    unfold translateMass Imat
    have hH : getH (0 : V) = 0 := by
      ext i j; fin_cases i <;> fin_cases j <;> simp [getH]
    have hd : (!![0, 0, 0; 0, 0, 0; 0, 0, 0] : M3 ℝ) = 0 := by
      ext i j; fin_cases i <;> fin_cases j <;> simp
    simp only [hH, hd]
    have hr : ∀ r : M3 ℝ, rotateMass r 0 = 0 := by
      intro r; unfold rotateMass; simp
    rw [hr]
    simp

/-- **C83** (nothing added): a free zero-length rod, or one fixed to a body, passes on the forces,
moments and masses of the lines attached to it and nothing else, whatever the coefficients of its
type, its depth and the motion of the water. -/
theorem C83_nothing_added (p : RodType.RodProps ℝ) (A B : V) (Or : M3 ℝ) (R : Rod) (e : Env)
    (phi beta : ℝ) :
    F6net (ready p 0 A B Or R) e phi beta =
      ((R.attachedA.map fun a => a.1).sum + (R.attachedB.map fun a => a.1).sum,
       (R.attachedA.map fun a => a.2.1).sum + (R.attachedB.map fun a => a.2.1).sum) ∧
    M6net (ready p 0 A B Or R) e phi beta = some (fromBlocks
      ((R.attachedA.map fun a => a.2.2).sum + (R.attachedB.map fun a => a.2.2).sum) 0 0 0) := by
  have hN : (ready p 0 A B Or R).N = 0 := rfl
  have hq : (ready p 0 A B Or R).q = 0 := ownAxis_zero Or A B
  refine only_lines hN phi beta ?_ ?_
  · have h1 : vq (ready p 0 A B Or R) e 0 = 0 := by unfold vq; rw [hq]; simp
    have h2 : aq (ready p 0 A B Or R) e 0 = 0 := by unfold aq; rw [hq]; simp
    unfold Dq Aq
    rw [h1, h2]
    simp
  · have h1 : Q (0 : V) = 0 := by unfold Q; simp
    have h2 : v (ready p 0 A B Or R) 0 = 0 := by
      unfold v segV
      rw [if_pos rfl, if_pos hN, mul_zero]
    unfold addedM
    rw [hq, h1, h2]
    simp

/-- **C83** (coupled rods): a coupled zero-length rod keeps the drag and added mass of its two
ends; out of the water it adds nothing either. -/
theorem C83_coupled_dry (p : RodType.RodProps ℝ) (A B axis : V) (R : Rod) (e : Env) {a : ℝ × ℝ}
    (ha : angles (readyCoupled p A B axis R) = some a) (hdry : e.zeta 0 ≤ R.r0 2) :
    F6net (readyCoupled p A B axis R) e a.1 a.2 =
      ((R.attachedA.map fun a => a.1).sum + (R.attachedB.map fun a => a.1).sum,
       (R.attachedA.map fun a => a.2.1).sum + (R.attachedB.map fun a => a.2.1).sum) ∧
    M6net (readyCoupled p A B axis R) e a.1 a.2 = some (fromBlocks
      ((R.attachedA.map fun a => a.2.2).sum + (R.attachedB.map fun a => a.2.2).sum) 0 0 0) := by
  have hN : (readyCoupled p A B axis R).N = 0 := rfl
  have ha' : a = (0, 0) := by
    unfold angles at ha
    rw [if_pos hN] at ha
    cases ha
    rfl
  have hw : ¬ endWet (readyCoupled p A B axis R) e a.1 0 := by
    unfold endWet z1lo zetaI
    rw [hN, ha']
    have : r (readyCoupled p A B axis R) 0 2 = R.r0 2 := by
      unfold r; simp; rfl
    rw [this]
    simp
    exact hdry
  refine only_lines hN a.1 a.2 ?_ ?_
  · unfold Dq Aq
    simp [hw]
  · have h2 : v (readyCoupled p A B axis R) 0 = 0 := by
      unfold v segV
      rw [if_pos rfl, if_pos hN, mul_zero]
    unfold addedM
    rw [h2]
    simp [hw]

/-! ## The axis of the joint -/

/-- Direction of the segment of a line at one of its ends, from the start to the end of the line -/
noncomputable def endDir (L : Line) : EndPt → V
  | .TOP => qs L (L.N - 1)
  | .BOTTOM => qs L 0

/-- Stretched length of that segment -/
noncomputable def endLen (L : Line) : EndPt → ℝ
  | .TOP => lstr L (L.N - 1)
  | .BOTTOM => lstr L 0

/-- Index of that end -/
def endNode (L : Line) : EndPt → ℕ
  | .TOP => L.N
  | .BOTTOM => 0

/-- `+1` if the line points along the rod when they are aligned -/
def sense : EndPt → EndPt → ℝ
  | .TOP, .BOTTOM => 1
  | .BOTTOM, .TOP => 1
  | _, _ => -1

theorem moment_eq (L : Line) (K : ℝ) (p rp : EndPt) (hN : 1 ≤ L.N) (hb : L.bstiff = none)
    (hl : 100 * eps / 2 < endLen L p) :
    endSegmentMoment L K p rp = some ((sense p rp * (L.EI / endLen L p)) • endDir L p) := by
  have hpos : endLen L p ≠ 0 := (tol_pos.trans hl).ne'
  unfold endSegmentMoment endEI
  rw [hb]
  have hs : L.N - 1 + 1 = L.N := by omega
  cases p with
  | TOP =>
    have h1 : unitvector (L.r (L.N - 1)) (L.r L.N) = (endDir L .TOP, endLen L .TOP) := by
      simp only [endDir, endLen, qs, lstr, hs]
    simp only [Option.bind_eq_bind, Option.bind_some, h1]
    rw [if_neg hpos]
    cases rp <;> simp [sense, neg_div]
  | BOTTOM =>
    have h1 : unitvector (L.r 0) (L.r 1) = (endDir L .BOTTOM, endLen L .BOTTOM) := rfl
    simp only [Option.bind_eq_bind, Option.bind_some, h1]
    rw [if_neg hpos]
    cases rp <;> simp [sense, neg_div]

theorem endDir_unit (L : Line) (p : EndPt) (hl : 100 * eps / 2 < endLen L p) :
    endDir L p ⬝ᵥ endDir L p = 1 := by
  have key : ∀ i, 100 * eps / 2 < lstr L i → qs L i ⬝ᵥ qs L i = 1 := by
    intro i h
    have hp := tol_pos.trans h
    have hne : ¬ EqualRealNos (lstr L i) 0 := by
      rw [equalRealNos_zero, abs_of_pos hp]; exact not_le.2 h
    rw [lstr_eq] at h hp hne
    unfold qs unitvector
    simp only
    rw [if_neg hne, smul_dotProduct, dotProduct_smul, ← norm_sq]
    simp only [smul_eq_mul]
    field_simp
  cases p with
  | TOP => exact key _ hl
  | BOTTOM => exact key _ hl

theorem normalize_smul (u : V) (k : ℝ) (hk : 0 < k) : Mooring.normalize (k • u) = Mooring.normalize u := by
  unfold Mooring.normalize
  have h1 : (k • u) ⬝ᵥ (k • u) = k ^ 2 * (u ⬝ᵥ u) := by
    rw [smul_dotProduct, dotProduct_smul]; simp only [smul_eq_mul]; ring
  have h2 : Mooring.norm (k • u) = k * Mooring.norm u := by
    unfold Mooring.norm
    rw [h1, Real.sqrt_mul (by positivity), Real.sqrt_sq hk.le]
  rw [h1, h2]
  by_cases h : 0 < u ⬝ᵥ u
  · rw [if_pos h, if_pos (by positivity), smul_smul]
    congr 1
    have : Mooring.norm u ≠ 0 := by
      intro h0
      have := norm_sq u
      rw [h0] at this
      rw [← this] at h
      norm_num at h
    field_simp
  · have h0 : u ⬝ᵥ u = 0 := le_antisymm (not_lt.1 h) (dot_self_nonneg u)
    have hu : u = 0 := dotProduct_self_eq_zero.1 h0
    rw [hu]
    simp

theorem normalize_unit (u : V) (h : u ⬝ᵥ u = 1) : Mooring.normalize u = u := by
  unfold Mooring.normalize
  have : Mooring.norm u = 1 := by unfold Mooring.norm; rw [h, Real.sqrt_one]
  rw [h, this, if_pos one_pos]
  simp

theorem normalize_neg (u : V) : Mooring.normalize (-u) = -Mooring.normalize u := by
  unfold Mooring.normalize
  have h1 : (-u) ⬝ᵥ (-u) = u ⬝ᵥ u := by simp
  have h2 : Mooring.norm (-u) = Mooring.norm u := by unfold Mooring.norm; rw [h1]
  rw [h1, h2]
  split_ifs <;> simp

theorem qs_set (L : Line) (x : V) (p rp : EndPt) (i : ℕ) :
    qs (setEndOrientation L x p rp) i = qs L i ∧ lstr (setEndOrientation L x p rp) i = lstr L i := by
  cases p <;> exact ⟨rfl, rfl⟩

theorem isEI_set (L : Line) (x : V) (p rp : EndPt) :
    isEI (setEndOrientation L x p rp) ↔ isEI L := by
  cases p <;> exact Iff.rfl

theorem set_top (L : Line) (x : V) (rp : EndPt) :
    (setEndOrientation L x .TOP rp).endTypeB = .CANTILEVERED ∧
    (setEndOrientation L x .TOP rp).qB = sense .TOP rp • x ∧
    (setEndOrientation L x .TOP rp).N = L.N := by
  refine ⟨rfl, ?_, rfl⟩
  cases rp <;> simp [setEndOrientation, sense]

theorem set_bottom (L : Line) (x : V) (rp : EndPt) :
    (setEndOrientation L x .BOTTOM rp).endTypeA = .CANTILEVERED ∧
    (setEndOrientation L x .BOTTOM rp).qA = sense .BOTTOM rp • x := by
  refine ⟨rfl, ?_⟩
  cases rp <;> simp [setEndOrientation, sense]

/-- The tangent of a line at a clamped end -/
theorem q_set (L : Line) (x : V) (p rp : EndPt) (hN : 1 ≤ L.N) (hEI : isEI L) :
    q (setEndOrientation L x p rp) (endNode L p) = sense p rp • x := by
  have hEI' := (isEI_set L x p rp).2 hEI
  have h0 : L.N ≠ 0 := by omega
  cases p with
  | TOP =>
    obtain ⟨h1, h2, h3⟩ := set_top L x rp
    unfold q
    simp only [endNode, h1, h2, h3, h0, hEI', if_true, if_false, not_true, or_false,
      reduceCtorEq]
  | BOTTOM =>
    obtain ⟨h1, h2⟩ := set_bottom L x rp
    unfold q
    simp only [endNode, h1, h2, hEI', if_true, if_false, not_true, or_false, reduceCtorEq]

theorem Kurv_set_top (L : Line) (x : V) (rp : EndPt) (hN : 1 ≤ L.N) (hEI : isEI L) :
    Kurv (setEndOrientation L x .TOP rp) L.N =
      getCurvature (endLen L .TOP) (endDir L .TOP) (sense .TOP rp • x) := by
  have hq : q (setEndOrientation L x .TOP rp) L.N = sense .TOP rp • x := q_set L x .TOP rp hN hEI
  obtain ⟨h1, h2, h3⟩ := set_top L x rp
  have h0 : L.N ≠ 0 := by omega
  have h4 : qs (setEndOrientation L x .TOP rp) (L.N - 1) = endDir L .TOP := rfl
  have h5 : lstr (setEndOrientation L x .TOP rp) (L.N - 1) = endLen L .TOP := rfl
  have hEI' := (isEI_set L x .TOP rp).2 hEI
  unfold Kurv
  simp only [hEI', true_or, h1, h3, h0, h4, h5, hq, if_true, if_false]

theorem Kurv_set_bottom (L : Line) (x : V) (rp : EndPt) (hN : 1 ≤ L.N) (hEI : isEI L) :
    Kurv (setEndOrientation L x .BOTTOM rp) 0 =
      getCurvature (endLen L .BOTTOM) (sense .BOTTOM rp • x) (endDir L .BOTTOM) := by
  have hq : q (setEndOrientation L x .BOTTOM rp) 0 = sense .BOTTOM rp • x :=
    q_set L x .BOTTOM rp hN hEI
  obtain ⟨h1, h2⟩ := set_bottom L x rp
  have h4 : qs (setEndOrientation L x .BOTTOM rp) 0 = endDir L .BOTTOM := rfl
  have h5 : lstr (setEndOrientation L x .BOTTOM rp) 0 = endLen L .BOTTOM := rfl
  have hEI' := (isEI_set L x .BOTTOM rp).2 hEI
  unfold Kurv
  simp only [hEI', true_or, h1, h4, h5, hq, if_true]

theorem sense_sq (p rp : EndPt) : sense p rp * sense p rp = 1 := by
  cases p <;> cases rp <;> norm_num [sense]

theorem sense_cases (p rp : EndPt) : sense p rp = 1 ∨ sense p rp = -1 := by
  cases p <;> cases rp <;> simp [sense]

theorem normalize_sense (p rp : EndPt) (u : V) (hu : u ⬝ᵥ u = 1) :
    Mooring.normalize (sense p rp • u) = sense p rp • u := by
  rcases sense_cases p rp with h | h
  · rw [h, one_smul, normalize_unit u hu]
  · rw [h, neg_smul, one_smul, normalize_neg, normalize_unit u hu]

/-- The lists of attached lines for a single line -/
noncomputable def single (L : Line) (K : ℝ) (p rp : EndPt) : Option V :=
  match rp with
  | .BOTTOM => jointAxis [(L, K, p)] []
  | .TOP => jointAxis [] [(L, K, p)]

/-- **C83** fails for clamps: whatever the direction given for a zero-length rod, the line attached
to it is clamped in the direction of its own segment, so that there is neither curvature nor moment
at its end, as if it were attached to a point. -/
theorem C83_clamp_false (L : Line) (K : ℝ) (p rp : EndPt) (hN : 1 ≤ L.N) (hb : L.bstiff = none)
    (hEI : 0 < L.EI) (hl : 100 * eps / 2 < endLen L p) :
    ∃ x, single L K p rp = some x ∧
      q (setEndOrientation L x p rp) (endNode L p) = endDir L p ∧
      Kurv (setEndOrientation L x p rp) (endNode L p) = 0 ∧
      endMoment (setEndOrientation L x p rp) (endNode L p) = 0 := by
  have hu := endDir_unit L p hl
  have hlp : 0 < endLen L p := tol_pos.trans hl
  have hk : 0 < L.EI / endLen L p := by positivity
  have hx : Mooring.normalize ((sense p rp * (L.EI / endLen L p)) • endDir L p) =
      sense p rp • endDir L p := by
    rw [mul_comm, ← smul_smul, normalize_smul _ _ hk, normalize_sense p rp _ hu]
  have hiE : isEI L := Or.inl hEI
  refine ⟨sense p rp • endDir L p, ?_, ?_⟩
  · cases rp with
    | BOTTOM =>
      simp only [single, jointAxis, momentSum, moment_eq L K p .BOTTOM hN hb hl, Option.bind_eq_bind,
        Option.bind_some, add_zero, hx]
    | TOP =>
      simp only [single, jointAxis, momentSum, moment_eq L K p .TOP hN hb hl, Option.bind_eq_bind,
        Option.bind_some, add_zero, zero_add, hx]
  · have hq : q (setEndOrientation L (sense p rp • endDir L p) p rp) (endNode L p) = endDir L p := by
      rw [q_set L _ p rp hN hiE, smul_smul, sense_sq, one_smul]
    have heps : (0 : ℝ) < eps := by unfold eps; norm_num
    have hK : Kurv (setEndOrientation L (sense p rp • endDir L p) p rp) (endNode L p) = 0 := by
      have hg : ∀ l, getCurvature l (endDir L p) (endDir L p) = 0 := by
        intro l; unfold getCurvature; rw [hu, if_pos (by linarith)]
      cases p with
      | TOP =>
        change Kurv (setEndOrientation L (sense .TOP rp • endDir L .TOP) .TOP rp) L.N = 0
        rw [Kurv_set_top L _ rp hN hiE, smul_smul, sense_sq, one_smul]
        exact hg _
      | BOTTOM =>
        change Kurv (setEndOrientation L (sense .BOTTOM rp • endDir L .BOTTOM) .BOTTOM rp) 0 = 0
        rw [Kurv_set_bottom L _ rp hN hiE, smul_smul, sense_sq, one_smul]
        exact hg _
    refine ⟨hq, hK, ?_⟩
    unfold endMoment
    rw [hK, zero_mul, zero_smul]

/-! ## A joint of two cables -/

/-- The axis of a joint: the end of the first cable at end A of the rod, the beginning of the
second at end B. -/
theorem joint_axis (L1 L2 : Line) (K1 K2 : ℝ) (hN1 : 1 ≤ L1.N) (hN2 : 1 ≤ L2.N)
    (hb1 : L1.bstiff = none) (hb2 : L2.bstiff = none) (hl1 : 100 * eps / 2 < endLen L1 .TOP)
    (hl2 : 100 * eps / 2 < endLen L2 .BOTTOM) :
    jointAxis [(L1, K1, .TOP)] [(L2, K2, .BOTTOM)] =
      some (Mooring.normalize ((L1.EI / endLen L1 .TOP) • endDir L1 .TOP +
        (L2.EI / endLen L2 .BOTTOM) • endDir L2 .BOTTOM)) := by
  simp only [jointAxis, momentSum, moment_eq L1 K1 .TOP .BOTTOM hN1 hb1 hl1,
    moment_eq L2 K2 .BOTTOM .TOP hN2 hb2 hl2, Option.bind_eq_bind, Option.bind_some, add_zero, sense,
    one_mul]

theorem cross_normalize (u : V) : Mooring.normalize u ⨯₃ u = 0 := by
  unfold Mooring.normalize
  split_ifs
  · rw [LinearMap.map_smul, LinearMap.smul_apply, cross_self, smul_zero]
  · exact cross_self u

/-- **C83** (axis): the axis of a joint is the one for which the moments `EI/l` times the sine of the
angle with the segment of each cable are in balance. -/
theorem C83_axis (L1 L2 : Line) (K1 K2 : ℝ) (hN1 : 1 ≤ L1.N) (hN2 : 1 ≤ L2.N)
    (hb1 : L1.bstiff = none) (hb2 : L2.bstiff = none) (hl1 : 100 * eps / 2 < endLen L1 .TOP)
    (hl2 : 100 * eps / 2 < endLen L2 .BOTTOM) :
    ∃ x, jointAxis [(L1, K1, .TOP)] [(L2, K2, .BOTTOM)] = some x ∧
      (L1.EI / endLen L1 .TOP) • (endDir L1 .TOP ⨯₃ x) =
        (L2.EI / endLen L2 .BOTTOM) • (x ⨯₃ endDir L2 .BOTTOM) := by
  refine ⟨_, joint_axis L1 L2 K1 K2 hN1 hN2 hb1 hb2 hl1 hl2, ?_⟩
  have h := cross_normalize ((L1.EI / endLen L1 .TOP) • endDir L1 .TOP +
        (L2.EI / endLen L2 .BOTTOM) • endDir L2 .BOTTOM)
  set x := Mooring.normalize ((L1.EI / endLen L1 .TOP) • endDir L1 .TOP +
        (L2.EI / endLen L2 .BOTTOM) • endDir L2 .BOTTOM)
  rw [LinearMap.map_add, LinearMap.map_smul, LinearMap.map_smul] at h
  rw [← cross_anticomm, smul_neg]
  exact (eq_neg_of_add_eq_zero_right h).symm ▸ (by simp)

/-- A cable whose end segment has a direction and a constant bending stiffness. -/
def Cable (a : Attached) : Prop := 1 ≤ a.1.N ∧ a.1.bstiff = none ∧ 100 * eps / 2 < endLen a.1 a.2.2

/-- The pull of a cable on the axis. -/
noncomputable def pull (rp : EndPt) (a : Attached) : V :=
  (sense a.2.2 rp * (a.1.EI / endLen a.1 a.2.2)) • endDir a.1 a.2.2

theorem momentSum_eq (rp : EndPt) (l : List Attached) (h : ∀ a ∈ l, Cable a) :
    momentSum rp l = some (l.map (pull rp)).sum := by
  induction l with
  | nil => rfl
  | cons a l ih =>
    obtain ⟨h1, h2, h3⟩ := h a List.mem_cons_self
    rw [momentSum, moment_eq a.1 a.2.1 a.2.2 rp h1 h2 h3, ih fun b hb => h b (List.mem_cons_of_mem _ hb)]
    rw [List.map_cons, List.sum_cons]
    rfl

/-- **C83** (axis): with any number of cables at both ends, the moments are in balance about the axis. -/
theorem C83_axis_all (As Bs : List Attached) (hA : ∀ a ∈ As, Cable a) (hB : ∀ a ∈ Bs, Cable a) :
    ∃ x, jointAxis As Bs = some x ∧
      (As.map fun a => (sense a.2.2 .BOTTOM * (a.1.EI / endLen a.1 a.2.2)) • (x ⨯₃ endDir a.1 a.2.2)).sum +
        (Bs.map fun a => (sense a.2.2 .TOP * (a.1.EI / endLen a.1 a.2.2)) • (x ⨯₃ endDir a.1 a.2.2)).sum = 0 ∧
      ((As.map (pull .BOTTOM)).sum + (Bs.map (pull .TOP)).sum ≠ 0 →
        x ⬝ᵥ x = 1 ∧ 0 < x ⬝ᵥ ((As.map (pull .BOTTOM)).sum + (Bs.map (pull .TOP)).sum)) := by
  have hs : ∀ (rp : EndPt) (l : List Attached) (x : V),
      (l.map fun a => (sense a.2.2 rp * (a.1.EI / endLen a.1 a.2.2)) • (x ⨯₃ endDir a.1 a.2.2)).sum = x ⨯₃ (l.map (pull rp)).sum := by
    intro rp l x
    induction l with
    | nil => simp
    | cons a l ih =>
      rw [List.map_cons, List.sum_cons, ih, List.map_cons, List.sum_cons, LinearMap.map_add, pull, LinearMap.map_smul]
  refine ⟨Mooring.normalize ((As.map (pull .BOTTOM)).sum + (Bs.map (pull .TOP)).sum), ?_, ?_, ?_⟩
  · unfold jointAxis
    rw [momentSum_eq _ _ hA, momentSum_eq _ _ hB]
    rfl
  · rw [hs, hs, ← LinearMap.map_add]
    exact cross_normalize _
  · intro hne
    generalize (As.map (pull .BOTTOM)).sum + (Bs.map (pull .TOP)).sum = w at hne
    have hw : 0 < w ⬝ᵥ w := by
      refine lt_of_le_of_ne ?_ fun h0 => hne (dotProduct_self_eq_zero.1 h0.symm)
      simp only [dotProduct, Fin.sum_univ_three]
      nlinarith [mul_self_nonneg (w 0), mul_self_nonneg (w 1), mul_self_nonneg (w 2)]
    have hn := Real.sqrt_pos.2 hw
    have h2 := Real.mul_self_sqrt hw.le
    unfold Mooring.normalize Mooring.norm
    rw [if_pos hw]
    constructor
    · rw [smul_dotProduct, dotProduct_smul, smul_eq_mul, smul_eq_mul]
      field_simp
      rw [pow_two, h2]
    · rw [smul_dotProduct, smul_eq_mul]
      positivity

theorem Kurv_top (L : Line) (x : V) (hN : 1 ≤ L.N) (hEI : isEI L) :
    Kurv (setEndOrientation L x .TOP .BOTTOM) L.N =
      getCurvature (endLen L .TOP) (endDir L .TOP) x := by
  have := Kurv_set_top L x .BOTTOM hN hEI
  simpa only [sense, one_smul] using this

theorem Kurv_bottom (L : Line) (x : V) (hN : 1 ≤ L.N) (hEI : isEI L) :
    Kurv (setEndOrientation L x .BOTTOM .TOP) 0 =
      getCurvature (endLen L .BOTTOM) x (endDir L .BOTTOM) := by
  have := Kurv_set_bottom L x .TOP hN hEI
  simpa only [sense, one_smul] using this

open Classical in
/-- Unit normal as computed by the code -/
noncomputable def unitOf (p : V) : V := if EqualRealNos (Mooring.norm p) 0 then p else (1 / Mooring.norm p) • p

theorem pvec_top (L : Line) (x : V) (hN : 1 ≤ L.N) (hEI : isEI L)
    (hK : ¬ EqualRealNos (Kurv (setEndOrientation L x .TOP .BOTTOM) L.N) 0) :
    pvec (setEndOrientation L x .TOP .BOTTOM) L.N = unitOf (endDir L .TOP ⨯₃ x) := by
  have hq := q_set L x .TOP .BOTTOM hN hEI
  simp only [sense, one_smul, endNode] at hq
  have h1 : qs (setEndOrientation L x .TOP .BOTTOM) (L.N - 1) = endDir L .TOP := rfl
  have h2 : (setEndOrientation L x .TOP .BOTTOM).N = L.N := rfl
  have h0 : L.N ≠ 0 := by omega
  have h3 : pvec (setEndOrientation L x .TOP .BOTTOM) L.N =
      unitOf (if L.N = 0 then q (setEndOrientation L x .TOP .BOTTOM) 0 ⨯₃
        qs (setEndOrientation L x .TOP .BOTTOM) 0
      else if L.N = L.N then qs (setEndOrientation L x .TOP .BOTTOM) (L.N - 1) ⨯₃
        q (setEndOrientation L x .TOP .BOTTOM) L.N
      else qs (setEndOrientation L x .TOP .BOTTOM) (L.N - 1) ⨯₃
        qs (setEndOrientation L x .TOP .BOTTOM) L.N) := by
    unfold pvec
    rw [if_neg hK]
    rfl
  rw [h3, if_neg h0, if_pos rfl, h1, hq]

theorem pvec_bottom (L : Line) (x : V) (hN : 1 ≤ L.N) (hEI : isEI L)
    (hK : ¬ EqualRealNos (Kurv (setEndOrientation L x .BOTTOM .TOP) 0) 0) :
    pvec (setEndOrientation L x .BOTTOM .TOP) 0 = unitOf (x ⨯₃ endDir L .BOTTOM) := by
  have hq := q_set L x .BOTTOM .TOP hN hEI
  simp only [sense, one_smul, endNode] at hq
  have h1 : qs (setEndOrientation L x .BOTTOM .TOP) 0 = endDir L .BOTTOM := rfl
  have h3 : pvec (setEndOrientation L x .BOTTOM .TOP) 0 =
      unitOf (q (setEndOrientation L x .BOTTOM .TOP) 0 ⨯₃
        qs (setEndOrientation L x .BOTTOM .TOP) 0) := by
    unfold pvec
    rw [if_neg hK]
    dsimp only
    rw [if_pos rfl]
    rfl
  rw [h3, h1, hq]

/-- **C83** (moments, cables of the same stiffness): a joint of two cables whose last and first
segments have the same `EI/l` passes the bending moment from one to the other: the moments at
their ends are the same. The curvatures are supposed to be both above, or both below the tolerance
of the code. Missing: cables of different stiffness, where it is false. -/
theorem C83_joint_partial (L1 L2 : Line) (K1 K2 : ℝ) (hN1 : 1 ≤ L1.N) (hN2 : 1 ≤ L2.N)
    (hb1 : L1.bstiff = none) (hb2 : L2.bstiff = none) (hE1 : 0 < L1.EI) (hE2 : 0 < L2.EI)
    (hl1 : 100 * eps / 2 < endLen L1 .TOP) (hl2 : 100 * eps / 2 < endLen L2 .BOTTOM)
    (hEI : L1.EI / endLen L1 .TOP = L2.EI / endLen L2 .BOTTOM)
    (x : V) (hx : jointAxis [(L1, K1, .TOP)] [(L2, K2, .BOTTOM)] = some x)
    (htol : EqualRealNos (Kurv (setEndOrientation L1 x .TOP .BOTTOM) L1.N) 0 ↔
      EqualRealNos (Kurv (setEndOrientation L2 x .BOTTOM .TOP) 0) 0) :
    endMoment (setEndOrientation L1 x .TOP .BOTTOM) L1.N =
      endMoment (setEndOrientation L2 x .BOTTOM .TOP) 0 := by
  have hp1 : 0 < endLen L1 .TOP := tol_pos.trans hl1
  have hp2 : 0 < endLen L2 .BOTTOM := tol_pos.trans hl2
  have hu1 := endDir_unit L1 .TOP hl1
  have hu2 := endDir_unit L2 .BOTTOM hl2
  rw [joint_axis L1 L2 K1 K2 hN1 hN2 hb1 hb2 hl1 hl2, ← hEI, ← smul_add,
    normalize_smul _ _ (by positivity)] at hx
  have hi1 : isEI L1 := Or.inl hE1
  have hi2 : isEI L2 := Or.inl hE2
  obtain ⟨k, hk⟩ : ∃ k : ℝ, x = k • (endDir L1 .TOP + endDir L2 .BOTTOM) := by
    cases hx
    unfold Mooring.normalize
    split_ifs
    · exact ⟨_, rfl⟩
    · exact ⟨1, (one_smul ..).symm⟩
  have hdot : endDir L1 .TOP ⬝ᵥ x = x ⬝ᵥ endDir L2 .BOTTOM := by
    rw [hk, dotProduct_smul, smul_dotProduct, dotProduct_add, add_dotProduct, hu1, hu2]
    ring_nf
  have hcr : endDir L1 .TOP ⨯₃ x = x ⨯₃ endDir L2 .BOTTOM := by
    rw [hk, LinearMap.map_smul, LinearMap.map_add, cross_self, zero_add, LinearMap.map_smul,
      LinearMap.smul_apply, LinearMap.map_add, LinearMap.add_apply, cross_self, add_zero]
  have hg1 : ∀ K, getNonlinearEI (setEndOrientation L1 x .TOP .BOTTOM) K = L1.EI := by
    intro K
    unfold getNonlinearEI
    rw [show (setEndOrientation L1 x .TOP .BOTTOM).bstiff = none from hb1]
    rfl
  have hg2 : ∀ K, getNonlinearEI (setEndOrientation L2 x .BOTTOM .TOP) K = L2.EI := by
    intro K
    unfold getNonlinearEI
    rw [show (setEndOrientation L2 x .BOTTOM .TOP).bstiff = none from hb2]
    rfl
  have hKE : Kurv (setEndOrientation L1 x .TOP .BOTTOM) L1.N * L1.EI =
      Kurv (setEndOrientation L2 x .BOTTOM .TOP) 0 * L2.EI := by
    rw [Kurv_top L1 x hN1 hi1, Kurv_bottom L2 x hN2 hi2]
    unfold getCurvature
    rw [hdot]
    split_ifs
    · simp
    · have : ∀ l E s : ℝ, 4 / l * s * E = 4 * s * (E / l) := by intro l E s; ring
      rw [this, this, hEI]
  unfold endMoment
  rw [hg1, hg2, hKE]
  by_cases hK : EqualRealNos (Kurv (setEndOrientation L1 x .TOP .BOTTOM) L1.N) 0
  · have h1 : pvec (setEndOrientation L1 x .TOP .BOTTOM) L1.N = 0 := by unfold pvec; rw [if_pos hK]
    have h2 : pvec (setEndOrientation L2 x .BOTTOM .TOP) 0 = 0 := by
      unfold pvec; rw [if_pos (htol.1 hK)]
    rw [h1, h2]
  · rw [pvec_top L1 x hN1 hi1 hK, pvec_bottom L2 x hN2 hi2 (fun h => hK (htol.2 h)), hcr]

/-- **C83** (resultant): then the bending forces on the two cables together have no resultant moment
if their other ends are attached to points. -/
theorem C83_joint_resultant_partial (L1 L2 : Line) (K1 K2 : ℝ) (hN1 : 1 ≤ L1.N) (hN2 : 1 ≤ L2.N)
    (hb1 : L1.bstiff = none) (hb2 : L2.bstiff = none) (hE1 : 0 < L1.EI) (hE2 : 0 < L2.EI)
    (hA : L1.endTypeA = .PINNED) (hB : L2.endTypeB = .PINNED)
    (hl1 : ∀ i < L1.N, 100 * eps / 2 < lstr L1 i) (hl2 : ∀ i < L2.N, 100 * eps / 2 < lstr L2 i)
    (hEI : L1.EI / endLen L1 .TOP = L2.EI / endLen L2 .BOTTOM)
    (x : V) (hx : jointAxis [(L1, K1, .TOP)] [(L2, K2, .BOTTOM)] = some x)
    (htol : EqualRealNos (Kurv (setEndOrientation L1 x .TOP .BOTTOM) L1.N) 0 ↔
      EqualRealNos (Kurv (setEndOrientation L2 x .BOTTOM .TOP) 0) 0) :
    ∑ i ∈ range (L1.N + 1), L1.r i ⨯₃ Bs (setEndOrientation L1 x .TOP .BOTTOM) i +
      ∑ i ∈ range (L2.N + 1), L2.r i ⨯₃ Bs (setEndOrientation L2 x .BOTTOM .TOP) i = 0 := by
  have h := C83_joint_partial L1 L2 K1 K2 hN1 hN2 hb1 hb2 hE1 hE2 (hl1 _ (by omega))
    (hl2 _ (by omega)) hEI x hx htol
  have h1 := C29_bending_moment (setEndOrientation L1 x .TOP .BOTTOM) hN1
    ((isEI_set L1 x .TOP .BOTTOM).2 (Or.inl hE1)) hl1
  have h2 := C29_bending_moment (setEndOrientation L2 x .BOTTOM .TOP) hN2
    ((isEI_set L2 x .BOTTOM .TOP).2 (Or.inl hE2)) hl2
  rw [show (setEndOrientation L1 x .TOP .BOTTOM).endTypeB = .CANTILEVERED from rfl, if_pos rfl,
    show (setEndOrientation L1 x .TOP .BOTTOM).endTypeA = .PINNED from hA,
    if_neg (by simp), sub_zero] at h1
  rw [show (setEndOrientation L2 x .BOTTOM .TOP).endTypeA = .CANTILEVERED from rfl, if_pos rfl,
    show (setEndOrientation L2 x .BOTTOM .TOP).endTypeB = .PINNED from hB,
    if_neg (by simp), zero_sub] at h2
  have e1 : ∑ i ∈ range (L1.N + 1), L1.r i ⨯₃ Bs (setEndOrientation L1 x .TOP .BOTTOM) i =
    endMoment (setEndOrientation L1 x .TOP .BOTTOM) L1.N := h1
  have e2 : ∑ i ∈ range (L2.N + 1), L2.r i ⨯₃ Bs (setEndOrientation L2 x .BOTTOM .TOP) i =
    -endMoment (setEndOrientation L2 x .BOTTOM .TOP) 0 := h2
  rw [e1, e2, h, add_neg_cancel]

/-- **C83** fails for tabulated bending stiffness: the axis is a division by zero as long as the
curvature kept by the line is zero, as it is at the beginning (source/Line.cpp:202). -/
theorem C83_table_false (L : Line) (f : ℝ → ℝ) (hb : L.bstiff = some f) (p rp : EndPt) :
    single L 0 p rp = none := by
  have : ∀ r, endSegmentMoment L 0 p r = none := by
    intro r
    unfold endSegmentMoment endEI
    rw [hb]
    simp
  cases rp <;> simp [single, jointAxis, momentSum, this]

/-- A cable of one segment of 1 m along x, up to the origin -/
noncomputable def cable1 (EI : ℝ) : Line :=
  { elbow with
    N := 1
    EI := EI
    bstiff := none
    endTypeA := .PINNED
    endTypeB := .PINNED
    r := fun i => if i = 0 then ![-1, 0, 0] else ![0, 0, 0] }

/-- A cable of one segment of 1 m along y, from the origin -/
noncomputable def cable2 (EI : ℝ) : Line :=
  { elbow with
    N := 1
    EI := EI
    bstiff := none
    endTypeA := .PINNED
    endTypeB := .PINNED
    r := fun i => if i = 0 then ![0, 0, 0] else ![0, 1, 0] }

theorem cable1_seg (E : ℝ) : unitvector ((cable1 E).r 0) ((cable1 E).r 1) = (![1, 0, 0], 1) := by
  apply unitvector_eq _ _ _ _ (by norm_num)
  · simp [dotProduct, Fin.sum_univ_three]
  · ext k; fin_cases k <;> simp [cable1]

theorem cable2_seg (E : ℝ) : unitvector ((cable2 E).r 0) ((cable2 E).r 1) = (![0, 1, 0], 1) := by
  apply unitvector_eq _ _ _ _ (by norm_num)
  · simp [dotProduct, Fin.sum_univ_three]
  · ext k; fin_cases k <;> simp [cable2]

theorem cable1_dir (E : ℝ) : endDir (cable1 E) .TOP = ![1, 0, 0] ∧ endLen (cable1 E) .TOP = 1 :=
  ⟨congrArg Prod.fst (cable1_seg E), congrArg Prod.snd (cable1_seg E)⟩

theorem cable2_dir (E : ℝ) : endDir (cable2 E) .BOTTOM = ![0, 1, 0] ∧ endLen (cable2 E) .BOTTOM = 1 :=
  ⟨congrArg Prod.fst (cable2_seg E), congrArg Prod.snd (cable2_seg E)⟩

theorem normalize_eq (u v : V) (n : ℝ) (hn : 0 < n) (h : u ⬝ᵥ u = n * n) (hv : n • v = u) :
    Mooring.normalize u = v := by
  unfold Mooring.normalize
  rw [if_pos (by rw [h]; positivity), norm_eq u n hn.le h, ← hv, smul_smul,
    one_div_mul_cancel hn.ne', one_smul]

/-- A unit vector in the plane between the cables, the moments at their ends -/
theorem cable_moments (E1 E2 a b : ℝ) (h1 : 0 < E1) (h2 : 0 < E2) (ha : 1 / 2 ≤ a) (ha' : a ≤ 4 / 5)
    (hb : 1 / 2 ≤ b) (hb' : b ≤ 4 / 5) (hE1 : 1 ≤ E1) (hE2 : 1 ≤ E2) :
    endMoment (setEndOrientation (cable1 E1) ![a, b, 0] .TOP .BOTTOM) (cable1 E1).N 2 =
      4 * Real.sqrt (1 / 2 * (1 - a)) * E1 ∧
    endMoment (setEndOrientation (cable2 E2) ![a, b, 0] .BOTTOM .TOP) 0 2 =
      4 * Real.sqrt (1 / 2 * (1 - b)) * E2 := by
  have he : eps ≤ 1 / 10 := by unfold eps; norm_num
  have ht : 100 * eps / 2 < 1 / 2 := by unfold eps; norm_num
  have hsq : ∀ t : ℝ, t ≤ 4 / 5 → 1 / 4 ≤ Real.sqrt (1 / 2 * (1 - t)) := by
    intro t ht
    exact Real.le_sqrt_of_sq_le (by nlinarith)
  have hun : ∀ t : ℝ, 1 / 2 ≤ t → unitOf (![0, 0, t] : V) = ![0, 0, 1] := by
    intro t htt
    have hn : Mooring.norm (![0, 0, t] : V) = t := by
      refine norm_eq _ _ (by linarith) ?_
      simp [dotProduct, Fin.sum_univ_three]
    unfold unitOf
    rw [hn, if_neg (by rw [equalRealNos_zero, abs_of_nonneg (by linarith)]; linarith)]
    have : t ≠ 0 := by linarith
    ext k; fin_cases k <;> simp [this]
  constructor
  · have hN : 1 ≤ (cable1 E1).N := le_refl 1
    have hi : isEI (cable1 E1) := Or.inl h1
    have hK : Kurv (setEndOrientation (cable1 E1) ![a, b, 0] .TOP .BOTTOM) (cable1 E1).N =
        4 * Real.sqrt (1 / 2 * (1 - a)) := by
      rw [Kurv_top _ _ hN hi, (cable1_dir E1).1, (cable1_dir E1).2]
      have hd : (![1, 0, 0] : V) ⬝ᵥ ![a, b, 0] = a := by simp [dotProduct, Fin.sum_univ_three]
      unfold getCurvature
      rw [hd, if_neg (by linarith)]
      norm_num
    have hKn : ¬ EqualRealNos (Kurv (setEndOrientation (cable1 E1) ![a, b, 0] .TOP .BOTTOM)
        (cable1 E1).N) 0 := by
      rw [hK, equalRealNos_zero, abs_of_nonneg (by positivity)]
      have := hsq a ha'
      linarith
    have hc : (![1, 0, 0] : V) ⨯₃ ![a, b, 0] = ![0, 0, b] := by
      ext k; fin_cases k <;> simp [cross_apply]
    have hg : getNonlinearEI (setEndOrientation (cable1 E1) ![a, b, 0] .TOP .BOTTOM)
        (4 * Real.sqrt (1 / 2 * (1 - a))) = E1 := rfl
    unfold endMoment
    rw [pvec_top _ _ hN hi hKn, hK, (cable1_dir E1).1, hc, hun b hb, hg]
    simp
  · have hN : 1 ≤ (cable2 E2).N := le_refl 1
    have hi : isEI (cable2 E2) := Or.inl h2
    have hK : Kurv (setEndOrientation (cable2 E2) ![a, b, 0] .BOTTOM .TOP) 0 =
        4 * Real.sqrt (1 / 2 * (1 - b)) := by
      rw [Kurv_bottom _ _ hN hi, (cable2_dir E2).1, (cable2_dir E2).2]
      have hd : (![a, b, 0] : V) ⬝ᵥ ![0, 1, 0] = b := by simp [dotProduct, Fin.sum_univ_three]
      unfold getCurvature
      rw [hd, if_neg (by linarith)]
      norm_num
    have hKn : ¬ EqualRealNos (Kurv (setEndOrientation (cable2 E2) ![a, b, 0] .BOTTOM .TOP) 0)
        0 := by
      rw [hK, equalRealNos_zero, abs_of_nonneg (by positivity)]
      have := hsq b hb'
      linarith
    have hc : (![a, b, 0] : V) ⨯₃ ![0, 1, 0] = ![0, 0, a] := by
      ext k; fin_cases k <;> simp [cross_apply]
    have hg : getNonlinearEI (setEndOrientation (cable2 E2) ![a, b, 0] .BOTTOM .TOP)
        (4 * Real.sqrt (1 / 2 * (1 - b))) = E2 := rfl
    unfold endMoment
    rw [pvec_bottom _ _ hN hi hKn, hK, (cable2_dir E2).1, hc, hun a ha, hg]
    simp

theorem cable_axis (E1 E2 K1 K2 n a b : ℝ) (hn : 0 < n) (h : E1 * E1 + E2 * E2 = n * n)
    (ha : n * a = E1) (hb : n * b = E2) :
    jointAxis [(cable1 E1, K1, .TOP)] [(cable2 E2, K2, .BOTTOM)] = some ![a, b, 0] := by
  have ht := tol_lt_one
  rw [joint_axis _ _ K1 K2 (le_refl 1) (le_refl 1) rfl rfl (by rw [(cable1_dir E1).2]; exact ht)
    (by rw [(cable2_dir E2).2]; exact ht), (cable1_dir E1).1, (cable1_dir E1).2, (cable2_dir E2).1,
    (cable2_dir E2).2]
  congr 1
  refine normalize_eq _ _ n hn ?_ ?_
  · change ((E1 / 1) • ![1, 0, 0] + (E2 / 1) • ![0, 1, 0] : V) ⬝ᵥ
      ((E1 / 1) • ![1, 0, 0] + (E2 / 1) • ![0, 1, 0]) = n * n
    simp [dotProduct, Fin.sum_univ_three]
    linarith
  · change n • ![a, b, 0] = ((E1 / 1) • ![1, 0, 0] + (E2 / 1) • ![0, 1, 0] : V)
    ext k; fin_cases k <;> simp [ha, hb]

/-- **C83** fails for cables of different stiffness: the moment at the end of the first cable is
not the one at the beginning of the second, the difference is lost. -/
theorem C83_joint_false : ∃ (L1 L2 : Line) (x : V), 1 ≤ L1.N ∧ 1 ≤ L2.N ∧ L1.bstiff = none ∧
    L2.bstiff = none ∧ 0 < L1.EI ∧ 0 < L2.EI ∧
    (∀ K1 K2, jointAxis [(L1, K1, .TOP)] [(L2, K2, .BOTTOM)] = some x) ∧
    endMoment (setEndOrientation L1 x .TOP .BOTTOM) L1.N ≠
      endMoment (setEndOrientation L2 x .BOTTOM .TOP) 0 := by
  refine ⟨cable1 3, cable2 4, ![3 / 5, 4 / 5, 0], le_refl 1, le_refl 1, rfl, rfl,
    by change (0 : ℝ) < 3; norm_num, by change (0 : ℝ) < 4; norm_num, ?_, ?_⟩
  · intro K1 K2
    exact cable_axis 3 4 K1 K2 5 _ _ (by norm_num) (by norm_num) (by norm_num) (by norm_num)
  · intro h
    obtain ⟨h1, h2⟩ := cable_moments 3 4 (3 / 5) (4 / 5) (by norm_num) (by norm_num) (by norm_num)
      (by norm_num) (by norm_num) (by norm_num) (by norm_num) (by norm_num)
    have h3 := congrFun h 2
    rw [h1, h2] at h3
    have e1 : Real.sqrt (1 / 2 * (1 - 3 / 5)) ^ 2 = 1 / 5 := by
      rw [Real.sq_sqrt (by norm_num)]; norm_num
    have e2 : Real.sqrt (1 / 2 * (1 - 4 / 5)) ^ 2 = 1 / 10 := by
      rw [Real.sq_sqrt (by norm_num)]; norm_num
    have h4 : (4 * Real.sqrt (1 / 2 * (1 - 3 / 5)) * 3) ^ 2 =
      (4 * Real.sqrt (1 / 2 * (1 - 4 / 5)) * 4) ^ 2 := by rw [h3]
    nlinarith

/-- Non-vacuity: two equal cables at a right angle, with a moment at the joint. -/
example : ∃ x, jointAxis [(cable1 1, 0, .TOP)] [(cable2 1, 0, .BOTTOM)] = some x ∧
    (cable1 1).EI / endLen (cable1 1) .TOP = (cable2 1).EI / endLen (cable2 1) .BOTTOM ∧
    (EqualRealNos (Kurv (setEndOrientation (cable1 1) x .TOP .BOTTOM) (cable1 1).N) 0 ↔
      EqualRealNos (Kurv (setEndOrientation (cable2 1) x .BOTTOM .TOP) 0) 0) ∧
    endMoment (setEndOrientation (cable1 1) x .TOP .BOTTOM) (cable1 1).N ≠ 0 := by
  have hs : 1 ≤ Real.sqrt 2 := Real.one_le_sqrt.2 (by norm_num)
  have hs2 : Real.sqrt 2 * Real.sqrt 2 = 2 := Real.mul_self_sqrt (by norm_num)
  have hs0 : Real.sqrt 2 ≠ 0 := by positivity
  have hs3 : Real.sqrt 2 ≤ 8 / 5 := Real.sqrt_le_iff.2 ⟨by norm_num, by norm_num⟩
  have ha : 1 / 2 ≤ Real.sqrt 2 / 2 := by linarith
  have hb : Real.sqrt 2 / 2 ≤ 4 / 5 := by linarith
  have hax := cable_axis 1 1 0 0 (Real.sqrt 2) (Real.sqrt 2 / 2) (Real.sqrt 2 / 2) (by positivity)
    (by rw [hs2]; norm_num) (by linarith) (by linarith)
  have hm := cable_moments 1 1 _ _ one_pos one_pos ha hb ha hb (le_refl 1) (le_refl 1)
  refine ⟨_, hax, ?_, ?_, ?_⟩
  · rw [(cable1_dir 1).2, (cable2_dir 1).2]; rfl
  · rw [Kurv_top _ _ (le_refl 1) (Or.inl one_pos), Kurv_bottom _ _ (le_refl 1) (Or.inl one_pos),
      (cable1_dir 1).1, (cable1_dir 1).2, (cable2_dir 1).1, (cable2_dir 1).2]
    have e1 : (![1, 0, 0] : V) ⬝ᵥ ![Real.sqrt 2 / 2, Real.sqrt 2 / 2, 0] =
      ![Real.sqrt 2 / 2, Real.sqrt 2 / 2, 0] ⬝ᵥ ![0, 1, 0] := by
      simp [dotProduct, Fin.sum_univ_three]
    unfold getCurvature
    rw [e1]
  · intro h
    have h3 := congrFun h 2
    rw [hm.1] at h3
    have : 1 / 4 ≤ Real.sqrt (1 / 2 * (1 - Real.sqrt 2 / 2)) :=
      Real.le_sqrt_of_sq_le (by nlinarith)
    rw [Pi.zero_apply] at h3
    linarith

/-- Non-vacuity of `C83_axis_all`: two cables at one end and one at the other, the axis along none of them. -/
example : (∀ a ∈ [((cable1 1, 0, .TOP) : Attached), (cable1 2, 0, .TOP)], Cable a) ∧
    (∀ a ∈ [((cable2 1, 0, .BOTTOM) : Attached)], Cable a) ∧
    (([((cable1 1, 0, .TOP) : Attached), (cable1 2, 0, .TOP)].map (pull .BOTTOM)).sum +
      ([((cable2 1, 0, .BOTTOM) : Attached)].map (pull .TOP)).sum) 0 = 3 := by
  refine ⟨?_, ?_, ?_⟩
  · intro a ha
    rcases List.mem_cons.1 ha with rfl | ha
    · exact ⟨le_refl 1, rfl, by show _ < endLen (cable1 1) .TOP; rw [(cable1_dir 1).2]; exact tol_lt_one⟩
    · rw [List.mem_singleton] at ha
      subst ha
      exact ⟨le_refl 1, rfl, by show _ < endLen (cable1 2) .TOP; rw [(cable1_dir 2).2]; exact tol_lt_one⟩
  · intro a ha
    rw [List.mem_singleton] at ha
    subst ha
    exact ⟨le_refl 1, rfl, by show _ < endLen (cable2 1) .BOTTOM; rw [(cable2_dir 1).2]; exact tol_lt_one⟩
  · simp only [List.map_cons, List.map_nil, List.sum_cons, List.sum_nil, pull]
    rw [(cable1_dir 1).1, (cable1_dir 1).2, (cable1_dir 2).1, (cable1_dir 2).2, (cable2_dir 1).1, (cable2_dir 1).2]
    simp [sense, cable1, cable2]
    norm_num

/-- Non-vacuity of the theorem about clamps. -/
example : 1 ≤ (cable1 1).N ∧ (cable1 1).bstiff = none ∧ 0 < (cable1 1).EI ∧
    100 * eps / 2 < endLen (cable1 1) .TOP :=
  ⟨le_refl 1, rfl, one_pos, by rw [(cable1_dir 1).2]; exact tol_lt_one⟩

end MD.Rods.Zero
