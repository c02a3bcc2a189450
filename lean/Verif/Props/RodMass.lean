import Verif.Props.Rod
import Mathlib.LinearAlgebra.Matrix.DotProduct

/-!
# Rods: inertia (C36), Newton's second law (C67)
-/

set_option linter.unusedSimpArgs false
set_option linter.unusedVariables false

namespace MD.Rods

open Matrix MD.Mat MD.Rot MD.Mooring Finset

variable {R : Rod} {e : Env}

theorem sixNN_eq {N : ℕ} (h : 6 * N * N < 2 ^ 32) : sixNN N = 6 * N * N := Nat.mod_eq_of_lt h

theorem Q_smul (c : ℝ) (u : V) : vecMulVec (c • u) (c • u) = (c ^ 2) • vecMulVec u u := by
  ext i j
  simp [vecMulVec]; ring

/-- Sum of the nodal masses about end A -/
theorem sum_nodal (hR : Proper R) :
    ∑ i ∈ range (R.N + 1), translateMass (r R i - r R 0) (m R i • (1 : M3 ℝ))
      = fromBlocks (mass R • 1) ((mass R * (R.UnstrLen / 2)) • getH R.q)
          ((mass R * (R.UnstrLen / 2)) • (getH R.q)ᵀ)
          ((mass R * (R.UnstrLen ^ 2 * (1 / 3 + 1 / (6 * R.N * R.N)))) • (1 - Q R.q)) := by
  have h1 : ∀ i ∈ range (R.N + 1), translateMass (r R i - r R 0) (m R i • (1 : M3 ℝ)) = _ :=
    fun i _ => by rw [r_rel hR.hN, translateMass_scalar hR.hq]
  rw [sum_congr rfl h1, sum_fromBlocks, ← sum_smul, ← sum_smul, ← sum_smul, ← sum_smul,
    sum_m hR.hN, sum_mx hR.hN, sum_mxx hR.hN]

/-- C36: whatever the number of segments, the mass matrix of a rod about its end A is that of the
uniform solid cylinder, plus what the water and the attached lines add at each node. -/
theorem C36_inertia_partial (hR : Proper R) (hh : HeadingOk R) (hn : 6 * R.N * R.N < 2 ^ 32)
    {a : ℝ × ℝ} (h : angles R = some a) :
    M6net R e a.1 a.2 = some (cylinder (mass R) (R.d / 2) R.UnstrLen R.q
      + ∑ i ∈ range (R.N + 1), translateMass (r R i - r R 0) (addedM R e a.1 i + lineM R i)) := by
  have hN' : (R.N : ℝ) ≠ 0 := by exact_mod_cast hR.hN
  have h6 : sixNN R.N ≠ 0 := by
    rw [sixNN_eq hn]
    have := Nat.pos_of_ne_zero hR.hN
    positivity
  unfold M6net inertiaCorrection
  rw [if_neg hR.hN, if_neg h6, sixNN_eq hn]
  simp only [Option.map_some, Option.some.injEq]
  have h1 : ∀ i ∈ range (R.N + 1), translateMass (r R i - r R 0) (M R e a.1 i)
      = translateMass (r R i - r R 0) (m R i • (1 : M3 ℝ))
        + translateMass (r R i - r R 0) (addedM R e a.1 i + lineM R i) := by
    intro i _
    rw [← translateMass_add]
    unfold M
    rw [add_assoc]
  rw [sum_congr rfl h1, sum_add_distrib, sum_nodal hR, add_right_comm]
  congr 1
  rw [Imat_eq _ _ _ _ R.q (axis_spherical hR hh h), Matrix.fromBlocks_add]
  unfold cylinder
  simp only [add_zero]
  rw [getH_smul, Q_smul, dotProduct_smul, smul_dotProduct, hR.hq]
  simp only [smul_eq_mul, mul_one, smul_smul, Matrix.transpose_smul]
  congr 1
  unfold Q
  have : (1 : M3 ℝ) = (1 - vecMulVec R.q R.q) + vecMulVec R.q R.q := by abel
  generalize vecMulVec R.q R.q = P at *
  push_cast
  have e1 : R.UnstrLen * R.UnstrLen / (6 * (R.N : ℝ) * R.N)
      = R.UnstrLen ^ 2 * (1 / (6 * R.N * R.N)) := by ring
  rw [e1]
  generalize 1 / (6 * (R.N : ℝ) * R.N) = t
  module

/-- C36: kinetic energy. In vacuum, without lines, twice the kinetic energy given by the mass
matrix is that of a solid cylinder: mass times squared speed of the centre plus the rotation about
the centre. -/
theorem C36_energy_partial (hR : Proper R) (hh : HeadingOk R) (hn : 6 * R.N * R.N < 2 ^ 32)
    (hw : e.rho_w = 0) (hA : R.attachedA = []) (hB : R.attachedB = [])
    {a : ℝ × ℝ} (h : angles R = some a) (vel om : V) :
    ∃ M6, M6net R e a.1 a.2 = some M6 ∧
      Sum.elim vel om ⬝ᵥ (M6 *ᵥ Sum.elim vel om)
        = mass R * ((vel + om ⨯₃ ((R.UnstrLen / 2) • R.q))
            ⬝ᵥ (vel + om ⨯₃ ((R.UnstrLen / 2) • R.q)))
          + mass R * (3 * (R.d / 2) ^ 2 + R.UnstrLen ^ 2) / 12
            * (om ⬝ᵥ om - (om ⬝ᵥ R.q) ^ 2)
          + mass R * (R.d / 2) ^ 2 / 2 * (om ⬝ᵥ R.q) ^ 2 := by
  refine ⟨_, C36_inertia_partial hR hh hn h, ?_⟩
  have hz : ∀ i ∈ range (R.N + 1),
      translateMass (r R i - r R 0) (addedM R e a.1 i + lineM R i) = 0 := by
    intro i _
    have : addedM R e a.1 i + lineM R i = 0 := by
      unfold addedM lineM
      rw [hw, hA, hB]
      simp
    rw [this]
    unfold translateMass
    simp
  rw [sum_congr rfl hz, sum_const_zero, add_zero]
  unfold cylinder
  simp only
  rw [Matrix.fromBlocks_mulVec]
  have hsum : ∀ p q' x y : V, Sum.elim p q' ⬝ᵥ Sum.elim x y = p ⬝ᵥ x + q' ⬝ᵥ y := by
    intro p q' x y
    simp [dotProduct, Fintype.sum_sum_type]
  rw [hsum]
  generalize mass R = mm
  generalize R.d / 2 = rad
  generalize R.UnstrLen = len
  have hq : R.q 0 * R.q 0 + R.q 1 * R.q 1 + R.q 2 * R.q 2 = 1 := by
    simpa [dotProduct, Fin.sum_univ_three] using hR.hq
  generalize R.q = u at *
  simp [Matrix.mulVec, dotProduct, Fin.sum_univ_three, cross_apply, getH, vecMulVec,
    Matrix.one_apply, Matrix.sub_apply, Matrix.add_apply]
  clear hz hw hA hB h hh hn hR
  ring

/-- C36 fails from 26755 segments on: `6 * N * N` is computed in an `unsigned int`, and the
inertia added to the nodal masses is not the one that compensates for the discretisation. -/
theorem C36_overflow_false (hR : Proper R) (hN : R.N = 26755) (hr : 0 < R.rho) {a : ℝ × ℝ}
    (hh : HeadingOk R) (h : angles R = some a) :
    M6net R e a.1 a.2 ≠ some (cylinder (mass R) (R.d / 2) R.UnstrLen R.q
      + ∑ i ∈ range (R.N + 1), translateMass (r R i - r R 0) (addedM R e a.1 i + lineM R i)) := by
  have hs : sixNN R.N = 12854 := by rw [hN]; decide
  unfold M6net inertiaCorrection
  rw [if_neg hR.hN, if_neg (by rw [hs]; decide), hs]
  simp only [Option.map_some, ne_eq, Option.some.injEq]
  have h1 : ∀ i ∈ range (R.N + 1), translateMass (r R i - r R 0) (M R e a.1 i)
      = translateMass (r R i - r R 0) (m R i • (1 : M3 ℝ))
        + translateMass (r R i - r R 0) (addedM R e a.1 i + lineM R i) := by
    intro i _
    rw [← translateMass_add]
    unfold M
    rw [add_assoc]
  rw [sum_congr rfl h1, sum_add_distrib, sum_nodal hR, add_right_comm]
  intro hc
  have hc := add_right_cancel hc
  rw [Imat_eq _ _ _ _ R.q (axis_spherical hR hh h), Matrix.fromBlocks_add] at hc
  unfold cylinder at hc
  simp only [add_zero] at hc
  have hc := (Matrix.fromBlocks_inj.mp hc).2.2.2
  rw [Q_smul, dotProduct_smul, smul_dotProduct, hR.hq] at hc
  unfold Q at hc
  -- trace
  have ht := congrArg Matrix.trace hc
  have hq : R.q 0 * R.q 0 + R.q 1 * R.q 1 + R.q 2 * R.q 2 = 1 := by
    simpa [dotProduct, Fin.sum_univ_three] using hR.hq
  simp only [Matrix.trace_add, Matrix.trace_smul, Matrix.trace_sub, Matrix.trace_one,
    Matrix.trace_vecMulVec, hR.hq, Fintype.card_fin, smul_eq_mul] at ht
  have hm : 0 < mass R := by
    have := hR.hL
    have := hR.hd
    have := Real.pi_pos
    unfold mass; positivity
  rw [hN] at ht
  push_cast at ht
  have hL2 : 0 < mass R * R.UnstrLen ^ 2 := by have := hR.hL; positivity
  nlinarith

/-- C36: with 65536 segments the divisor is zero. -/
theorem C36_divisor_zero (hN : R.N = 65536) (phi beta : ℝ) : M6net R e phi beta = none := by
  have hs : sixNN R.N = 0 := by rw [hN]; decide
  unfold M6net inertiaCorrection
  rw [if_neg (by rw [hN]; decide), if_pos hs]
  rfl

theorem translateMass_zero_mass (x : V) : translateMass x (0 : M3 ℝ) = 0 := by
  unfold translateMass
  simp

theorem translateMass_origin (A : M3 ℝ) : translateMass (0 : V) A = fromBlocks A 0 0 0 := by
  have hH : getH (0 : V) = 0 := by
    ext i j; fin_cases i <;> fin_cases j <;> simp [getH]
  unfold translateMass
  simp [hH]

/-- C36, C67 (attached lines): the forces and masses of the lines attached to the ends of a rod act
at those ends, A at the reference point and B at the length of the rod along its axis. -/
theorem C36_lines (hN : R.N ≠ 0) :
    let FA := (R.attachedA.map fun a => a.1).sum
    let FB := (R.attachedB.map fun a => a.1).sum
    let MA := (R.attachedA.map fun a => a.2.2).sum
    let MB := (R.attachedB.map fun a => a.2.2).sum
    let b := R.UnstrLen • R.q
    ∑ i ∈ range (R.N + 1), lineF R i = FA + FB ∧
    ∑ i ∈ range (R.N + 1), (r R i - r R 0) ⨯₃ lineF R i = b ⨯₃ FB ∧
    ∑ i ∈ range (R.N + 1), translateMass (r R i - r R 0) (lineM R i) =
      fromBlocks MA 0 0 0 + translateMass b MB := by
  intro FA FB MA MB b
  have hb : r R R.N - r R 0 = b := by
    have hN' : (R.N : ℝ) ≠ 0 := by exact_mod_cast hN
    rw [r_eq hN, r_zero, div_self hN', one_mul, add_sub_cancel_left]
  refine ⟨?_, ?_, ?_⟩
  · exact sum_caps (fun _ : ℕ => FA) (fun _ : ℕ => FB) R.N
  · have h : ∀ i, (r R i - r R 0) ⨯₃ lineF R i =
        (if i = 0 then (r R i - r R 0) ⨯₃ FA else 0) +
        (if i = R.N then (r R i - r R 0) ⨯₃ FB else 0) := by
      intro i
      unfold lineF
      rw [LinearMap.map_add]
      congr 1
      · split_ifs
        · rfl
        · rw [LinearMap.map_zero]
      · split_ifs
        · rfl
        · rw [LinearMap.map_zero]
    simp only [h]
    rw [sum_caps (fun i : ℕ => (r R i - r R 0) ⨯₃ FA) (fun i : ℕ => (r R i - r R 0) ⨯₃ FB) R.N, hb,
      sub_self, LinearMap.map_zero, LinearMap.zero_apply, zero_add]
  · have h : ∀ i, translateMass (r R i - r R 0) (lineM R i) =
        (if i = 0 then translateMass (r R i - r R 0) MA else 0) +
        (if i = R.N then translateMass (r R i - r R 0) MB else 0) := by
      intro i
      unfold lineM
      rw [translateMass_add]
      congr 1
      · split_ifs
        · rfl
        · rw [translateMass_zero_mass]
      · split_ifs
        · rfl
        · rw [translateMass_zero_mass]
    simp only [h]
    rw [sum_caps (fun i : ℕ => translateMass (r R i - r R 0) MA)
      (fun i : ℕ => translateMass (r R i - r R 0) MB) R.N, hb, sub_self, translateMass_origin]

/-- The inclined rod meets the hypotheses -/
example : Proper (spar 0) ∧ HeadingOk (spar 0) ∧ 6 * (spar 0).N * (spar 0).N < 2 ^ 32 := by
  refine ⟨spar_proper _, Or.inr ?_, by simp [spar]⟩
  change 1 / 10 ^ 6 ≤ Real.sqrt ((3 / 5 : ℝ) * (3 / 5) + 0 * 0)
  rw [show (3 / 5 : ℝ) * (3 / 5) + 0 * 0 = (3 / 5) ^ 2 by norm_num, Real.sqrt_sq (by norm_num)]
  norm_num

/-- So does one with 26755 segments -/
example : Proper { spar 0 with N := 26755 } ∧ HeadingOk { spar 0 with N := 26755 } := by
  refine ⟨⟨by simp, by norm_num [spar], by norm_num [spar],
    (spar_proper 0).hq⟩, Or.inr ?_⟩
  change 1 / 10 ^ 6 ≤ Real.sqrt ((3 / 5 : ℝ) * (3 / 5) + 0 * 0)
  rw [show (3 / 5 : ℝ) * (3 / 5) + 0 * 0 = (3 / 5) ^ 2 by norm_num, Real.sqrt_sq (by norm_num)]
  norm_num

/-! ## C67: Newton's second law -/

/-- Acceleration of the centre of a rigid rod from the accelerations of end A: linear `a`, angular
`al`, and angular velocity `w` -/
noncomputable def centreAcc (R : Rod) (a al : V) : V :=
  let c := (R.UnstrLen / 2) • R.q
  a + al ⨯₃ c + R.w ⨯₃ (R.w ⨯₃ c)

theorem getH_mulVec (c w : V) : getH c *ᵥ w = w ⨯₃ c := by
  funext k
  fin_cases k <;> simp [getH, Matrix.mulVec, dotProduct, Fin.sum_univ_three, cross_apply] <;> ring

/-- What the accelerations of a free rod satisfy in vacuum -/
theorem free_rod (hR : Proper R) (hh : HeadingOk R) (hn : 6 * R.N * R.N < 2 ^ 32)
    (hw : e.rho_w = 0) (hA : R.attachedA = []) (hB : R.attachedB = [])
    {a al : V} (h : freeAcc R e a al) {ang : ℝ × ℝ} (hang : angles R = some ang) :
    mass R • centreAcc R a al = ∑ i ∈ range (R.N + 1), Fnet R e ang.1 ang.2 i
      + mass R • (R.w ⨯₃ (R.w ⨯₃ ((R.UnstrLen / 2) • R.q))) := by
  obtain ⟨F, Mo, M6, h1, h2⟩ := h
  have hz : ∀ i ∈ range (R.N + 1),
      translateMass (r R i - r R 0) (addedM R e ang.1 i + lineM R i) = 0 := by
    intro i _
    have : addedM R e ang.1 i + lineM R i = 0 := by
      unfold addedM lineM
      rw [hw, hA, hB]
      simp
    rw [this]
    unfold translateMass
    simp
  have hM := C36_inertia_partial (e := e) hR hh hn hang
  rw [sum_congr rfl hz, sum_const_zero, add_zero] at hM
  unfold getNetForceAndMass at h1
  rw [hang, Option.bind_some, hM] at h1
  simp only [Option.map_some, Option.some.injEq, sub_self, Prod.mk.injEq] at h1
  obtain ⟨hF, -, hM6⟩ := h1
  have hcen : centripetal R e ang.1 (r R 0) 0 = 0 := by
    unfold centripetal
    simp
  rw [hcen, add_zero] at hF
  have h0 : getH (0 : V) = 0 := by
    ext i j
    fin_cases i <;> fin_cases j <;> simp [getH]
  unfold translateMass6 cylinder at hM6
  simp only [h0, Matrix.toBlocks_fromBlocks₁₁, Matrix.toBlocks_fromBlocks₁₂,
    Matrix.toBlocks_fromBlocks₂₂, Matrix.mul_zero, Matrix.zero_mul, zero_add,
    Matrix.transpose_zero] at hM6
  rw [← hM6, Matrix.fromBlocks_mulVec] at h2
  have h3 := congrArg (fun f => f ∘ Sum.inl) h2
  simp only [Sum.elim_comp_inl, Sum.elim_comp_inr, Matrix.smul_mulVec, Matrix.one_mulVec,
    getH_mulVec] at h3
  unfold centreAcc
  simp only
  rw [smul_add, smul_add, h3, ← hF]
  rfl

/-- C67 for a rod which does not rotate: mass times acceleration of the centre is the sum of the
forces on the nodes (here in vacuum, so that there is no added mass). -/
theorem C67_free_rod_partial (hR : Proper R) (hh : HeadingOk R) (hn : 6 * R.N * R.N < 2 ^ 32)
    (hw : e.rho_w = 0) (hA : R.attachedA = []) (hB : R.attachedB = []) (hrot : R.w = 0)
    {a al : V} (h : freeAcc R e a al) {ang : ℝ × ℝ} (hang : angles R = some ang) :
    mass R • centreAcc R a al = ∑ i ∈ range (R.N + 1), Fnet R e ang.1 ang.2 i := by
  rw [free_rod hR hh hn hw hA hB h hang, hrot]
  simp

/-- C67 fails for every rod which turns about anything but its own axis: the centripetal term is
missing (end A is taken as the origin of an inertial frame). -/
theorem C67_free_rod_false (hR : Proper R) (hh : HeadingOk R) (hn : 6 * R.N * R.N < 2 ^ 32)
    (hw : e.rho_w = 0) (hA : R.attachedA = []) (hB : R.attachedB = []) (hr : 0 < R.rho)
    (hrot : R.w ⨯₃ R.q ≠ 0)
    {a al : V} (h : freeAcc R e a al) {ang : ℝ × ℝ} (hang : angles R = some ang) :
    mass R • centreAcc R a al ≠ ∑ i ∈ range (R.N + 1), Fnet R e ang.1 ang.2 i := by
  rw [free_rod hR hh hn hw hA hB h hang]
  intro hc
  rw [add_eq_left] at hc
  have hm : mass R ≠ 0 := by
    have := hR.hL
    have := hR.hd
    have := Real.pi_pos
    unfold mass; positivity
  rw [smul_eq_zero_iff_right hm] at hc
  have hL : R.UnstrLen / 2 ≠ 0 := by have := hR.hL; positivity
  rw [map_smul, map_smul, smul_eq_zero_iff_right hL] at hc
  -- w × (w × q) = 0 gives |w × q|² = 0
  have h1 : (R.w ⨯₃ R.q) ⬝ᵥ (R.w ⨯₃ R.q) = -(R.q ⬝ᵥ (R.w ⨯₃ (R.w ⨯₃ R.q))) := by
    simp [dotProduct, Fin.sum_univ_three, cross_apply]; ring
  rw [hc, dotProduct_zero, neg_zero, dotProduct_self_eq_zero] at h1
  exact hrot h1

/-- Deep space -/
noncomputable def space : Env := { still with rho_w := 0, g := 0 }

/-- A rod of 10 m along z in deep space, turning about x -/
noncomputable def baton : Rod := { buoy 0 with w := ![1, 0, 0] }

theorem baton_proper : Proper baton :=
  ⟨by simp [baton, buoy, spar], by norm_num [baton, buoy, spar], by norm_num [baton, buoy, spar],
    by simp [baton, buoy, spar, dotProduct, Fin.sum_univ_three]⟩

/-- The code does return accelerations for it, zero ones: end A stays where it is and the rest
turns around it. -/
theorem baton_free : freeAcc baton space 0 0 := by
  obtain ⟨ang, hang⟩ := angles_isSome baton_proper
  have hF : ∀ i, Fnet baton space ang.1 ang.2 i = 0 := by
    intro i
    have hz : ∀ i, r baton i 2 ≥ 0 := by
      intro i
      rw [r_eq baton_proper.hN]
      have : (0 : ℝ) ≤ i / 2 * 10 := by positivity
      simpa [baton, buoy, spar] using this
    have h1 : W baton space i = 0 := by
      unfold W; split_ifs
      · rfl
      · funext k; fin_cases k <;> simp [space]
    have hr : space.rho_w = 0 := rfl
    have hp : ∀ j, space.pdyn j = 0 := fun _ => rfl
    have ha : ∀ F : ℝ, F = 0 → axial F ang.1 ang.2 = 0 := by
      rintro _ rfl
      unfold axial; funext k; fin_cases k <;> simp
    have h2 : Bo baton space ang.1 ang.2 i = 0 := by
      unfold Bo BoSide BoA BoB
      rw [hr, ha _ (by ring), ha _ (by ring)]
      split_ifs <;> funext k <;> fin_cases k <;> simp
    have h3 : Dp baton space ang.1 i = 0 := by unfold Dp; rw [hr]; split_ifs <;> simp
    have h4 : Dq baton space ang.1 i = 0 := by unfold Dq; rw [hr]; split_ifs <;> simp
    have h5 : Ap baton space ang.1 i = 0 := by unfold Ap; rw [hr]; split_ifs <;> simp
    have h6 : Aq baton space ang.1 i = 0 := by unfold Aq; rw [hr]; split_ifs <;> simp
    have h7 : Pd baton space ang.1 i = 0 := by unfold Pd; rw [hp]; split_ifs <;> simp
    have h8 : B baton space i = 0 := by
      unfold B
      have h9 : ¬ r baton i 2 < -200 := by have := hz i; linarith
      simp [space, still, h9]
    have h9 : lineF baton i = 0 := by unfold lineF; simp [baton, buoy, spar]
    unfold Fnet
    rw [h1, h2, h3, h4, h5, h6, h7, h8, h9]
    simp
  have hM : Mext baton space ang.1 ang.2 = 0 := by
    unfold Mext MextCap MextWater MextLine
    have hr : space.rho_w = 0 := rfl
    have hA : baton.attachedA = [] := rfl
    have hB : baton.attachedB = [] := rfl
    rw [hr, hA, hB]
    split_ifs <;> funext k <;> fin_cases k <;> simp
  have hn : 6 * baton.N * baton.N < 2 ^ 32 := by simp [baton, buoy, spar]
  have hM6 := C36_inertia_partial (e := space) baton_proper (Or.inl ⟨rfl, rfl⟩) hn hang
  unfold freeAcc getNetForceAndMass
  rw [hang, Option.bind_some, hM6]
  refine ⟨_, _, _, rfl, ?_⟩
  have hc : centripetal baton space ang.1 (r baton 0) 0 = 0 := by unfold centripetal; simp
  have h66 : F6net baton space ang.1 ang.2 = (0, 0) := by
    unfold F6net
    simp [hF, hM]
  rw [hc, h66]
  simp

/-- A free rod with nothing pulling at it whose centre accelerates -/
example : Proper baton ∧ HeadingOk baton ∧ baton.w ⨯₃ baton.q ≠ 0 ∧ freeAcc baton space 0 0 := by
  refine ⟨baton_proper, Or.inl ⟨rfl, rfl⟩, ?_, baton_free⟩
  intro h
  have := congrFun h 1
  simp [baton, buoy, spar, cross_apply] at this

end MD.Rods
