import Verif.Props.LineForces

/-!
# Properties C30 and C31: tension of the segments and reported tensions
-/

set_option linter.unusedSimpArgs false
set_option linter.unusedVariables false

namespace MD.Mooring

open Matrix MD.Mat Finset

/-! ## C30 -/

/-- C30: a segment not stretched beyond its unstretched length has no tension. -/
theorem C30_slack (L : Line) (i : ℕ) (hl : 0 < L.l i)
    (h : norm (L.r (i + 1) - L.r i) ≤ L.l i) : T L i = 0 := by
  unfold T
  dsimp only
  rw [if_neg]
  rw [lstr_eq, gt_iff_lt, not_lt, div_le_one hl]
  exact h

/-- C30, constant stiffness: the tension of a stretched segment pulls its ends together (it is
applied to the first node, towards the second) with magnitude `E A` times the strain. -/
theorem C30_constant (L : Line) (i : ℕ) (hl : 0 < L.l i) (hs : L.stiff = none) (hE : 0 ≤ L.E)
    (hA : 0 ≤ L.A) (h : L.l i < norm (L.r (i + 1) - L.r i))
    (htol : 100 * eps / 2 < norm (L.r (i + 1) - L.r i)) :
    norm (T L i) = L.E * L.A * (norm (L.r (i + 1) - L.r i) / L.l i - 1) ∧
    norm (L.r (i + 1) - L.r i) • T L i = norm (T L i) • (L.r (i + 1) - L.r i) := by
  have hq := lstr_smul_qs L i htol
  have hu := qs_unit L i htol
  have hT : T L i = (L.E * L.A * (norm (L.r (i + 1) - L.r i) / L.l i - 1)) • qs L i := by
    unfold T getNonlinearE
    dsimp only
    rw [hs, if_pos (by rw [lstr_eq, gt_iff_lt, one_lt_div hl]; exact h), lstr_eq]
    congr 1
    field_simp
  have hc : 0 ≤ L.E * L.A * (norm (L.r (i + 1) - L.r i) / L.l i - 1) := by
    have : 0 ≤ norm (L.r (i + 1) - L.r i) / L.l i - 1 := by
      rw [sub_nonneg, one_le_div hl]; exact h.le
    positivity
  have hn : norm (T L i) = L.E * L.A * (norm (L.r (i + 1) - L.r i) / L.l i - 1) := by
    apply norm_eq _ _ hc
    rw [hT, dotProduct_smul, smul_dotProduct, hu]
    simp
  refine ⟨hn, ?_⟩
  rw [hn, hT, ← lstr_eq, ← hq, smul_smul, smul_smul, mul_comm]

/-- C30, tabulated stiffness: likewise with magnitude `A` times the tabulated stress. -/
theorem C30_tabulated (L : Line) (i : ℕ) (f : ℝ → ℝ) (hl : 0 < L.l i) (hs : L.stiff = some f)
    (hA : 0 ≤ L.A) (h : L.l i < norm (L.r (i + 1) - L.r i))
    (htol : 100 * eps / 2 < norm (L.r (i + 1) - L.r i))
    (hf : 0 ≤ f (norm (L.r (i + 1) - L.r i) / L.l i - 1)) :
    norm (T L i) = L.A * f (norm (L.r (i + 1) - L.r i) / L.l i - 1) ∧
    norm (L.r (i + 1) - L.r i) • T L i = norm (T L i) • (L.r (i + 1) - L.r i) := by
  have hq := lstr_smul_qs L i htol
  have hu := qs_unit L i htol
  have hx : 0 < norm (L.r (i + 1) - L.r i) / L.l i - 1 := by
    rw [sub_pos, one_lt_div hl]; exact h
  have hT : T L i = (L.A * f (norm (L.r (i + 1) - L.r i) / L.l i - 1)) • qs L i := by
    unfold T getNonlinearE
    dsimp only
    rw [hs, if_pos (by rw [lstr_eq, gt_iff_lt, one_lt_div hl]; exact h)]
    dsimp only
    rw [lstr_eq, if_neg (not_lt.2 hx.le)]
    congr 1
    generalize f (norm (L.r (i + 1) - L.r i) / L.l i - 1) = y
    have : norm (L.r (i + 1) - L.r i) - L.l i ≠ 0 := by linarith
    field_simp
  have hc : 0 ≤ L.A * f (norm (L.r (i + 1) - L.r i) / L.l i - 1) := mul_nonneg hA hf
  have hn : norm (T L i) = L.A * f (norm (L.r (i + 1) - L.r i) / L.l i - 1) := by
    apply norm_eq _ _ hc
    rw [hT, dotProduct_smul, smul_dotProduct, hu]
    simp
  refine ⟨hn, ?_⟩
  rw [hn, hT, ← lstr_eq, ← hq, smul_smul, smul_smul, mul_comm]

/-- C30: the tension never pushes, whatever the geometry and the (non negative) stiffness. -/
theorem C30_never_pushes (L : Line) (i : ℕ) (hl : 0 < L.l i) (hA : 0 ≤ L.A)
    (hE : match L.stiff with
      | none => 0 ≤ L.E
      | some f => ∀ x > 0, 0 ≤ f x) :
    ∃ k : ℝ, 0 ≤ k ∧ T L i = k • (L.r (i + 1) - L.r i) := by
  obtain ⟨k, hk, hq⟩ := unitvector_parallel (L.r i) (L.r (i + 1))
  unfold T
  dsimp only
  split
  · rename_i h
    have h1 : 1 < lstr L i / L.l i := h
    have h2 : L.l i < lstr L i := (one_lt_div hl).1 h1
    have hn : 0 ≤ getNonlinearE L (lstr L i) (L.l i) := by
      unfold getNonlinearE
      cases hs : L.stiff with
      | none => rw [hs] at hE; exact hE
      | some f =>
        rw [hs] at hE
        dsimp only
        rw [if_neg (by linarith)]
        exact div_nonneg (hE _ (by linarith)) (by linarith)
    refine ⟨getNonlinearE L (lstr L i) (L.l i) * L.A * (lstr L i - L.l i) / L.l i * k, ?_, ?_⟩
    · have : 0 ≤ lstr L i - L.l i := by linarith
      positivity
    · rw [qs, hq, smul_smul]
  · exact ⟨0, le_refl _, by rw [zero_smul]⟩

/-- C30, constant stiffness: the tension increases with the stretch. Two states `L`, `L'` of
segments with the same properties. -/
theorem C30_increasing (L L' : Line) (i i' : ℕ) (hs : L.stiff = none) (hs' : L'.stiff = none)
    (hEE : L'.E = L.E) (hAA : L'.A = L.A) (hll : L'.l i' = L.l i)
    (hl : 0 < L.l i) (hE : 0 < L.E) (hA : 0 < L.A)
    (h : L.l i < norm (L.r (i + 1) - L.r i))
    (h' : norm (L.r (i + 1) - L.r i) < norm (L'.r (i' + 1) - L'.r i'))
    (htol : 100 * eps / 2 < norm (L.r (i + 1) - L.r i)) :
    norm (T L i) < norm (T L' i') := by
  rw [(C30_constant L i hl hs hE.le hA.le h htol).1,
    (C30_constant L' i' (hll ▸ hl) hs' (hEE ▸ hE.le) (hAA ▸ hA.le) (by rw [hll]; linarith)
      (by linarith)).1, hEE, hAA, hll]
  have : norm (L.r (i + 1) - L.r i) / L.l i < norm (L'.r (i' + 1) - L'.r i') / L.l i := by gcongr
  have := mul_pos hE hA
  nlinarith

/-- C30, tabulated stiffness: with a table of strains `xs` and non-decreasing non-negative
stresses `ys`, interpolated as the code does, the tension does not decrease with the stretch. -/
theorem C30_increasing_table (L L' : Line) (i i' : ℕ) (xs ys : List ℝ)
    (hinc : xs.Pairwise (· < ·)) (hlen : ys.length = xs.length) (hne : xs ≠ [])
    (hmono : ys.Pairwise (· ≤ ·)) (hy : ∀ y ∈ ys, 0 ≤ y)
    (hs : L.stiff = some (fun x => (MD.Interp.interp xs ys x).getD 0)) (hs' : L'.stiff = L.stiff)
    (hAA : L'.A = L.A) (hll : L'.l i' = L.l i)
    (hl : 0 < L.l i) (hA : 0 ≤ L.A)
    (h : L.l i < norm (L.r (i + 1) - L.r i))
    (h' : norm (L.r (i + 1) - L.r i) ≤ norm (L'.r (i' + 1) - L'.r i'))
    (htol : 100 * eps / 2 < norm (L.r (i + 1) - L.r i)) :
    norm (T L i) ≤ norm (T L' i') := by
  have hpos : ∀ x, 0 ≤ (MD.Interp.interp xs ys x).getD 0 := by
    intro x
    have hy0 : 0 < ys.length := by rw [hlen]; exact List.length_pos_iff.mpr hne
    have hx0 : 0 < xs.length := List.length_pos_iff.mpr hne
    obtain ⟨z, z', e3, e4, hle'⟩ := MD.Interp.C21_monotone xs ys hinc hlen hne hmono
      (min x (xs[0]'hx0)) x (min_le_left _ _)
    rw [e4, Option.getD_some]
    refine le_trans ?_ hle'
    -- at or before the first abscissa the value is the first ordinate
    obtain ⟨w, e5, hw⟩ := MD.Interp.C21_scalar xs ys hinc hlen hne (min x (xs[0]'hx0))
    rw [e3] at e5
    cases e5
    have hwy : z = ys[0]'hy0 := by
      apply hw.below (xs[0]'hx0) (ys[0]'hy0) _ _ (min_le_right _ _)
      · rw [List.head?_eq_getElem?, List.getElem?_eq_getElem hx0]
      · rw [List.head?_eq_getElem?, List.getElem?_eq_getElem hy0]
    rw [hwy]
    exact hy _ (List.getElem_mem _)
  have hs'' : L'.stiff = some (fun x => (MD.Interp.interp xs ys x).getD 0) := hs' ▸ hs
  rw [(C30_tabulated L i _ hl hs hA h htol (hpos _)).1,
    (C30_tabulated L' i' _ (hll ▸ hl) hs'' (hAA ▸ hA) (by rw [hll]; linarith)
      (by linarith) (hpos _)).1, hAA, hll]
  apply mul_le_mul_of_nonneg_left _ hA
  have hx : norm (L.r (i + 1) - L.r i) / L.l i - 1 ≤ norm (L'.r (i' + 1) - L'.r i') / L.l i - 1 := by
    gcongr
  obtain ⟨y, y', e1, e2, hle⟩ := MD.Interp.C21_monotone xs ys hinc hlen hne hmono _ _ hx
  simp only [e1, e2, Option.getD_some]
  exact hle

/-- The segments of the bent line: the first is stretched, the second is not. -/
example : T elbow 0 ≠ 0 ∧ T elbow 1 = 0 := by
  have h0 : lstr elbow 0 = 2 := congrArg Prod.snd elbowP_qs0
  have h1 : lstr elbow 1 = 1 := congrArg Prod.snd elbowP_qs1
  constructor
  · intro h
    have := (C30_constant elbow 0 one_pos rfl zero_le_one zero_le_one
      (by rw [← lstr_eq, h0]; change (1 : ℝ) < 2; norm_num)
      (by rw [← lstr_eq, h0]; have := tol_lt_one; linarith)).1
    rw [h, ← lstr_eq, h0] at this
    have hn : norm (0 : V) = 0 := norm_eq _ _ (le_refl _) (by simp)
    rw [hn] at this
    have h1 : (0 : ℝ) = 1 * 1 * (2 / 1 - 1) := this
    norm_num at h1
  · exact C30_slack elbow 1 one_pos (by rw [← lstr_eq, h1]; exact le_refl _)

/-- A table meeting the hypotheses of `C30_increasing_table` -/
example : ([0, 1, 2] : List ℝ).Pairwise (· < ·) ∧ ([0, 1, 4] : List ℝ).Pairwise (· ≤ ·) := by
  constructor <;> norm_num

/-- C30: the reported end tensions (API) are those of the end segments, damping included. The
fairlead is at the last node, the anchor at the first. -/
theorem C30_reported (L : Line) (hN : 1 ≤ L.N) (tA tB : V) (hA : Td L 0 = some tA)
    (hB : Td L (L.N - 1) = some tB) :
    fairTen L = some (norm (T L (L.N - 1) + tB)) ∧ getNodeTen L 0 = some (T L 0 + tA) := by
  constructor
  · unfold fairTen getNodeTen
    rw [if_neg (lt_irrefl _), if_neg (by omega), if_pos rfl, hB]
    rfl
  · unfold getNodeTen
    rw [if_neg (by omega), if_pos rfl, hA]
    rfl

/-- With constant damping and no strain rate the reported fairlead tension is `E A` times the
strain of the last segment, or zero if it is slack. -/
theorem C30_reported_static (L : Line) (hN : 1 ≤ L.N) (hd : L.damp = none) (hs : L.stiff = none)
    (hE : 0 ≤ L.E) (hA : 0 ≤ L.A) (hl : 0 < L.l (L.N - 1))
    (hrate : L.rd L.N = L.rd (L.N - 1))
    (htol : 100 * eps / 2 < norm (L.r L.N - L.r (L.N - 1))) :
    fairTen L = some (L.E * L.A * max 0 (norm (L.r L.N - L.r (L.N - 1)) / L.l (L.N - 1) - 1)) := by
  obtain ⟨n, hn⟩ : ∃ n, L.N = n + 1 := ⟨L.N - 1, by omega⟩
  rw [hn, Nat.add_sub_cancel] at hl hrate htol
  have hB : Td L (L.N - 1) = some 0 := by
    unfold Td getNonlinearC
    rw [hd]
    simp only [Option.bind_eq_bind, Option.bind_some, Option.pure_def, Option.some.injEq]
    rw [hn, Nat.add_sub_cancel]
    have : ldstr L n = 0 := by unfold ldstr; rw [hrate, sub_self, dotProduct_zero]
    rw [this]
    simp
  obtain ⟨tA, hA'⟩ : ∃ tA, Td L 0 = some tA := ⟨_, by unfold Td getNonlinearC; rw [hd]; rfl⟩
  rw [(C30_reported L hN tA 0 hA' hB).1, add_zero, hn, Nat.add_sub_cancel]
  congr 1
  by_cases h : L.l n < norm (L.r (n + 1) - L.r n)
  · rw [(C30_constant L n hl hs hE hA h htol).1, max_eq_right]
    rw [sub_nonneg, one_le_div hl]; exact h.le
  · rw [C30_slack L n hl (not_lt.1 h), max_eq_left]
    · rw [mul_zero]; exact norm_eq _ _ (le_refl _) (by simp)
    · rw [sub_nonpos, div_le_one hl]; exact not_lt.1 h

/-- A slack segment whose ends approach each other -/
noncomputable def slack : Line :=
  { elbow with
    N := 1
    l := fun _ => 2
    r := fun i => if i = 0 then ![0, 0, 0] else ![1, 0, 0]
    rd := fun i => if i = 0 then ![1, 0, 0] else 0 }

theorem slack_qs0 : unitvector (slack.r 0) (slack.r 1) = (![1, 0, 0], 1) := by
  apply unitvector_eq _ _ _ _ (by norm_num)
  · simp [dotProduct, Fin.sum_univ_three]
  · ext k; fin_cases k <;> simp [slack, elbow]

theorem slack_T : T slack 0 = 0 := by
  apply C30_slack slack 0 (by change (0 : ℝ) < 2; norm_num)
  have : norm (slack.r 1 - slack.r 0) = 1 := congrArg Prod.snd slack_qs0
  rw [this]
  change (1 : ℝ) ≤ 2
  norm_num

theorem slack_Td : Td slack 0 = some ![-1 / 2, 0, 0] := by
  have hq : qs slack 0 = ![1, 0, 0] := congrArg Prod.fst slack_qs0
  unfold Td getNonlinearC ldstr
  rw [hq]
  have hd : slack.damp = none := rfl
  rw [hd]
  simp only [Option.bind_eq_bind, Option.bind_some, Option.pure_def, Option.some.injEq]
  funext k
  fin_cases k <;> simp [slack, elbow, dotProduct, Fin.sum_univ_three]

/-- The internal damping does push: the total axial force (tension and damping) of a slack
segment can point away from the line, and is reported as a positive tension. -/
theorem C30_damping_pushes : ∃ (L : Line) (td : V), 0 ≤ L.c ∧ 0 ≤ L.A ∧ (∀ i, 0 < L.l i) ∧
    Td L 0 = some td ∧ (T L 0 + td) ⬝ᵥ (L.r 1 - L.r 0) < 0 ∧
    ∃ t, fairTen L = some t ∧ 0 < t := by
  refine ⟨slack, ![-1 / 2, 0, 0], zero_le_one, zero_le_one, fun i => ?_, slack_Td, ?_, 1 / 2, ?_, ?_⟩
  · change (0 : ℝ) < 2; norm_num
  · rw [slack_T]
    simp [slack, elbow, dotProduct, Fin.sum_univ_three]
    norm_num
  · rw [(C30_reported slack (by decide) _ _ slack_Td slack_Td).1]
    change some (norm (T slack 0 + _)) = _
    rw [slack_T, zero_add]
    congr 1
    apply norm_eq _ _ (by norm_num)
    simp [dotProduct, Fin.sum_univ_three]
    norm_num
  · norm_num

/-- A motionless slack segment under its weight -/
noncomputable def hanging : Line := { slack with rd := fun _ => 0, EI := 0 }

/-- The tension channels of the output files are not the tension of the end segments: they
include the weight (and drag, bending and seabed forces) lumped at the end node. Here the line
is slack, but the output file says its fairlead has a tension. -/
theorem C30_output_channel_false : ∃ (L : Line) (e : Env) (t : ℝ), 1 ≤ L.N ∧
    fairTen L = some 0 ∧ outputTen L e L.N = some t ∧ 0 < t := by
  have hT : T hanging 0 = 0 := slack_T
  have hTd : Td hanging 0 = some 0 := by
    have hq : qs hanging 0 = ![1, 0, 0] := congrArg Prod.fst slack_qs0
    unfold Td getNonlinearC ldstr
    rw [hq]
    simp [hanging, slack, elbow]
  have hn : norm (0 : V) = 0 := norm_eq _ _ (le_refl _) (by simp)
  refine ⟨hanging, { vacuum with g := 1 }, 1, by decide, ?_, ?_, one_pos⟩
  · rw [(C30_reported hanging (by decide) _ _ hTd hTd).1]
    change some (norm (T hanging 0 + _)) = _
    rw [hT, add_zero, hn]
  · have hax : axial hanging 1 = some 0 := by
      unfold axial
      rw [if_neg (by decide), if_pos (by rfl), Nat.sub_self, hTd, hT]
      simp
    have hBs : Bs hanging 1 = 0 := by
      unfold Bs
      rw [if_neg]
      rintro (h | h)
      · exact lt_irrefl _ h
      · exact absurd h (by decide)
    have hPb : ∀ e, Pb hanging e 1 = 0 := by
      intro e
      unfold Pb
      rw [if_neg]
      rintro ⟨h, -⟩
      exact absurd h (by decide)
    change outputTen hanging _ 1 = _
    unfold outputTen Fnet
    rw [hax, hBs, hPb]
    simp only [Option.bind_eq_bind, Option.bind_some, Option.pure_def, Option.some.injEq]
    have hz : (0 : V) + (W hanging { vacuum with g := 1 } 1 +
        (Dp hanging { vacuum with g := 1 } 1 + Dq hanging { vacuum with g := 1 } 1 +
          Ap hanging { vacuum with g := 1 } 1 + Aq hanging { vacuum with g := 1 } 1) +
        B hanging { vacuum with g := 1 } 1 + 0 + 0) = ![0, 0, -1] := by
      have hW : W hanging { vacuum with g := 1 } 1 = ![0, 0, -1] := by
        simp [W, hanging, slack, elbow, vacuum, adjacent]
      have h1 : Dp hanging { vacuum with g := 1 } 1 = 0 := by
        simp [Dp, vacuum]
      have h2 : Dq hanging { vacuum with g := 1 } 1 = 0 := by
        simp [Dq, vacuum]
      have h3 : Ap hanging { vacuum with g := 1 } 1 = 0 := by
        simp [Ap, vacuum]
      have h4 : Aq hanging { vacuum with g := 1 } 1 = 0 := by
        simp [Aq, vacuum]
      have h5 : B hanging { vacuum with g := 1 } 1 = 0 := by
        unfold B
        dsimp only
        rw [if_neg]
        simp [hanging, slack, vacuum]
      rw [hW, h1, h2, h3, h4, h5]
      simp
    rw [hz]
    exact norm_eq _ _ zero_le_one (by simp [dotProduct, Fin.sum_univ_three])

/-! ## C31 -/

theorem maxTenLoop_spec (L : Line) : ∀ (fuel i : ℕ) (t0 t : ℝ), maxTenLoop L i fuel t0 = some t →
    t0 ≤ t ∧ (∀ j, i ≤ j → j < i + fuel → ∃ v, getNodeTen L j = some v ∧ norm v ≤ t) ∧
    (t = t0 ∨ ∃ j v, i ≤ j ∧ j < i + fuel ∧ getNodeTen L j = some v ∧ norm v = t) := by
  intro fuel
  induction fuel with
  | zero =>
    intro i t0 t h
    simp only [maxTenLoop, Option.some.injEq] at h
    exact ⟨h.le, fun j h1 h2 => by omega, Or.inl h.symm⟩
  | succ n ih =>
    intro i t0 t h
    unfold maxTenLoop at h
    cases hv : getNodeTen L i with
    | none => rw [hv] at h; exact absurd h (by simp)
    | some v =>
      rw [hv] at h
      simp only [Option.bind_eq_bind, Option.bind_some] at h
      obtain ⟨h1, h2, h3⟩ := ih _ _ _ h
      have hm : t0 ≤ (if norm v > t0 then norm v else t0) ∧
          norm v ≤ (if norm v > t0 then norm v else t0) := by
        split
        · rename_i hh; exact ⟨hh.le, le_refl _⟩
        · rename_i hh; exact ⟨le_refl _, not_lt.1 hh⟩
      refine ⟨hm.1.trans h1, ?_, ?_⟩
      · intro j hj1 hj2
        rcases Nat.eq_or_lt_of_le hj1 with rfl | hlt
        · exact ⟨v, hv, hm.2.trans h1⟩
        · exact h2 j hlt (by omega)
      · rcases h3 with h3 | ⟨j, w, hj1, hj2, hw, hn⟩
        · by_cases hh : norm v > t0
          · rw [if_pos hh] at h3
            exact Or.inr ⟨i, v, le_refl _, by omega, hv, h3.symm⟩
          · rw [if_neg hh] at h3
            exact Or.inl h3
        · exact Or.inr ⟨j, w, by omega, by omega, hw, hn⟩

/-- C31 for all the nodes but the fairlead: the reported maximum is at least the tension of every
node before the last, and is the tension of one of them. Missing: the last node, the fairlead
(`C31_fairlead_false`). -/
theorem C31_max_partial (L : Line) (hN : 1 ≤ L.N) (t : ℝ) (h : maxTen L = some t) :
    (∀ j < L.N, ∃ v, getNodeTen L j = some v ∧ norm v ≤ t) ∧
    ∃ j v, j < L.N ∧ getNodeTen L j = some v ∧ norm v = t := by
  obtain ⟨h1, h2, h3⟩ := maxTenLoop_spec L _ _ _ _ h
  refine ⟨fun j hj => h2 j (Nat.zero_le _) (by omega), ?_⟩
  rcases h3 with h3 | ⟨j, v, _, hj, hv, hn⟩
  · obtain ⟨v, hv, hle⟩ := h2 0 (le_refl _) (by omega)
    exact ⟨0, v, by omega, hv, by rw [h3] at hle ⊢; exact le_antisymm hle (norm_nonneg _)⟩
  · exact ⟨j, v, by omega, hv, hn⟩

/-- A straight line along `x`, slack in its first segment and stretched in the last -/
noncomputable def taut : Line :=
  { elbow with
    r := fun i => if i = 0 then ![0, 0, 0] else if i = 1 then ![1, 0, 0] else ![3, 0, 0]
    rd := fun _ => 0 }

theorem taut_qs0 : unitvector (taut.r 0) (taut.r 1) = (![1, 0, 0], 1) := by
  apply unitvector_eq _ _ _ _ (by norm_num)
  · simp [dotProduct, Fin.sum_univ_three]
  · ext k; fin_cases k <;> simp [taut, elbow]

theorem taut_qs1 : unitvector (taut.r 1) (taut.r 2) = (![1, 0, 0], 2) := by
  apply unitvector_eq _ _ _ _ (by norm_num)
  · simp [dotProduct, Fin.sum_univ_three]
  · ext k; fin_cases k <;> simp [taut, elbow]; norm_num

theorem taut_T : T taut 0 = 0 ∧ T taut 1 = ![1, 0, 0] ∧ Td taut 0 = some 0 ∧ Td taut 1 = some 0 := by
  have hl0 : lstr taut 0 = 1 := congrArg Prod.snd taut_qs0
  have hl1 : lstr taut 1 = 2 := congrArg Prod.snd taut_qs1
  have hq1 : qs taut 1 = ![1, 0, 0] := congrArg Prod.fst taut_qs1
  refine ⟨?_, ?_, ?_, ?_⟩
  · unfold T
    dsimp only
    rw [hl0, if_neg]
    simp [taut, elbow]
  · unfold T getNonlinearE
    dsimp only
    rw [hl1, hq1, if_pos]
    · ext k; fin_cases k <;> simp [taut, elbow]; norm_num
    · simp [taut, elbow]
  · unfold Td getNonlinearC ldstr
    simp [taut, elbow]
  · unfold Td getNonlinearC ldstr
    simp [taut, elbow]

theorem taut_max : maxTen taut = some (1 / 2) := by
  obtain ⟨h0, h1, d0, d1⟩ := taut_T
  have hN : taut.N = 2 := rfl
  have n0 : getNodeTen taut 0 = some 0 := by
    unfold getNodeTen
    rw [if_neg (by omega), if_pos rfl, d0, h0]
    simp
  have n1 : getNodeTen taut 1 = some ![1 / 2, 0, 0] := by
    unfold getNodeTen
    rw [if_neg (by omega), if_neg (by omega), if_neg (by omega), d1, Nat.sub_self, d0, h0, h1]
    simp
  have z : norm (0 : V) = 0 := norm_eq _ _ (le_refl _) (by simp)
  have hh : norm (![1 / 2, 0, 0] : V) = 1 / 2 :=
    norm_eq _ _ (by norm_num) (by simp [dotProduct, Fin.sum_univ_three])
  unfold maxTen
  rw [hN]
  simp only [maxTenLoop, n0, n1, Option.bind_eq_bind, Option.bind_some, z, hh]
  norm_num

/-- C31 fails for the fairlead: `MoorDyn_GetLineMaxTen` can be less than
`MoorDyn_GetLineFairTen`. -/
theorem C31_fairlead_false : ∃ (L : Line) (tmax tfair : ℝ), 1 ≤ L.N ∧
    maxTen L = some tmax ∧ fairTen L = some tfair ∧ tmax < tfair := by
  obtain ⟨h0, h1, d0, d1⟩ := taut_T
  refine ⟨taut, 1 / 2, 1, by decide, taut_max, ?_, by norm_num⟩
  rw [(C30_reported taut (by decide) 0 0 d0 d1).1]
  change some (norm (T taut 1 + 0)) = _
  rw [h1, add_zero]
  congr 1
  exact norm_eq _ _ zero_le_one (by simp [dotProduct, Fin.sum_univ_three])

/-- The hypothesis of `C31_max_partial` holds for that line. -/
example : ∃ t, maxTen taut = some t :=
  ⟨1 / 2, taut_max⟩

/-! ## C56: the values for FAST -/

/-- C56, values: the horizontal values are the horizontal components of the forces the line applies
at its fairlead and anchor; the vertical ones are the vertical components minus the weight of the
mass of the node, added mass included. -/
theorem C56_values_partial (L : Line) (e : Env) (F F' mo mo' : V) (Mf Ma : M3 ℝ) (fh fv ah av : ℝ)
    (hB : getEndStuff L e .TOP = some (F, mo, Mf)) (hA : getEndStuff L e .BOTTOM = some (F', mo', Ma))
    (h : getFASTtens L e = some (fh, fv, ah, av)) :
    (0 ≤ fh ∧ fh ^ 2 = F 0 ^ 2 + F 1 ^ 2) ∧ (0 ≤ ah ∧ ah ^ 2 = F' 0 ^ 2 + F' 1 ^ 2) ∧
    fv = F 2 - Mf 0 0 * e.g ∧ av = F' 2 - Ma 0 0 * e.g := by
  unfold getEndStuff at hA hB
  unfold getFASTtens at h
  dsimp only at hA hB
  rcases hN : Fnet L e L.N with _ | fN
  · rw [hN] at h; simp at h
  rcases h0 : Fnet L e 0 with _ | f0
  · rw [hN, h0] at h; simp at h
  rw [hN] at hB
  rw [h0] at hA
  rw [hN, h0] at h
  simp only [Option.bind_eq_bind, Option.bind_some, Option.pure_def, Option.some.injEq,
    Prod.mk.injEq] at h hA hB
  obtain ⟨rfl, -, rfl⟩ := hB
  obtain ⟨rfl, -, rfl⟩ := hA
  obtain ⟨rfl, rfl, rfl, rfl⟩ := h
  exact ⟨⟨Real.sqrt_nonneg _, Real.sq_sqrt (by positivity)⟩,
    ⟨Real.sqrt_nonneg _, Real.sq_sqrt (by positivity)⟩, by ring, by ring⟩

/-- C56, the vertical values are not the vertical forces: for every line with mass, under gravity,
the one at the fairlead is less than the force there. -/
theorem C56_vertical_false (L : Line) (e : Env) (F mo : V) (Mf : M3 ℝ) (fh fv ah av : ℝ)
    (hB : getEndStuff L e .TOP = some (F, mo, Mf)) (h : getFASTtens L e = some (fh, fv, ah, av))
    (hM : 0 < Mf 0 0) (hg : 0 < e.g) : fv < F 2 := by
  rcases hA : getEndStuff L e .BOTTOM with _ | ⟨F', mo', Ma⟩
  · exfalso
    unfold getEndStuff at hA
    unfold getFASTtens at h
    dsimp only at hA
    rcases h0 : Fnet L e 0 with _ | f0
    · rcases hN : Fnet L e L.N with _ | fN <;> rw [hN, h0] at h <;> simp at h
    · rw [h0] at hA; simp at hA
  · have := (C56_values_partial L e F F' mo mo' Mf Ma fh fv ah av hB hA h).2.2.1
    have := mul_pos hM hg
    linarith

example : ∃ F mo Mf t, getEndStuff hanging { vacuum with g := 1 } .TOP = some (F, mo, Mf) ∧
    getFASTtens hanging { vacuum with g := 1 } = some t ∧ 0 < Mf 0 0 := by
  have hTd : Td hanging 0 = some 0 := by
    have hq : qs hanging 0 = ![1, 0, 0] := congrArg Prod.fst slack_qs0
    unfold Td getNonlinearC ldstr
    rw [hq]
    simp [hanging, slack, elbow]
  have h1 : ∃ v, axial hanging 1 = some v := by
    unfold axial
    rw [if_neg (by decide), if_pos (by rfl), Nat.sub_self, hTd]
    exact ⟨_, rfl⟩
  have h0 : ∃ v, axial hanging 0 = some v := by
    unfold axial
    rw [if_pos rfl, hTd]
    exact ⟨_, rfl⟩
  obtain ⟨v1, h1⟩ := h1
  obtain ⟨v0, h0⟩ := h0
  have hN : hanging.N = 1 := rfl
  have f1 : ∃ f, Fnet hanging { vacuum with g := 1 } 1 = some f := by
    unfold Fnet; rw [h1]; exact ⟨_, rfl⟩
  have f0 : ∃ f, Fnet hanging { vacuum with g := 1 } 0 = some f := by
    unfold Fnet; rw [h0]; exact ⟨_, rfl⟩
  obtain ⟨f1, hf1⟩ := f1
  obtain ⟨f0, hf0⟩ := f0
  have ht : ∃ t, getFASTtens hanging { vacuum with g := 1 } = some t := by
    unfold getFASTtens
    rw [hN, hf1, hf0]
    exact ⟨_, rfl⟩
  obtain ⟨t, ht⟩ := ht
  refine ⟨f1, 0, M hanging { vacuum with g := 1 } 1, t, ?_, ht, ?_⟩
  rotate_left
  · simp [M, m, hanging, slack, elbow, vacuum, adjacent]
    positivity
  · unfold getEndStuff
    dsimp only
    rw [hN, hf1]
    rfl

end MD.Mooring
