import Verif.Model.LineType
import Verif.Props.LineTension

/-!
# Property C82: the columns of the line types mean what the documentation says
-/

set_option linter.unusedSimpArgs false
set_option linter.unusedVariables false

namespace MD.Mooring.LineType

open MD.Text MD.Reader Finset Matrix

/-- **C82** (columns): a row of at least ten entries whose stiffnesses and damping can be
read gives the quantities of the documented columns, in the documented order: name,
diameter, mass, EA, BA, EI, Cd, Ca, CdAx, CaAx. -/
theorem C82_columns (fs : Str → Option Str) (base row name diam mass ea ba ei cd ca cdax caax : Str)
    (rest : List Str) (EA BA EI : Curve)
    (h : split ' ' row = [name, diam, mass, ea, ba, ei, cd, ca, cdax, caax] ++ rest)
    (h1 : readCurve fs base ea = .ok EA) (h2 : readCurve fs base ba = .ok BA)
    (h3 : readCurve fs base ei = .ok EI) :
    ∃ p, readLineProps fs base row = some p ∧ p.type = name ∧ p.d = atof diam ∧ p.w = atof mass ∧
      p.EA = ofCurve EA ∧ p.c = ofCurve BA ∧ p.EI = ofCurve EI ∧ p.Cdn = atof cd ∧
      p.Can = atof ca ∧ p.Cdt = atof cdax ∧ p.Cat = atof caax := by
  refine ⟨⟨name, atof diam, atof mass, ofCurve EA, ofCurve BA, ofCurve EI, atof ca, atof caax,
    atof cd, atof cdax⟩, ?_, rfl, rfl, rfl, rfl, rfl, rfl, rfl, rfl, rfl, rfl⟩
  unfold readLineProps
  rw [h]
  simp only [List.cons_append, h1, h2, h3]

/-- **C82** (failures): otherwise there is no line type. -/
theorem C82_columns_fail (fs : Str → Option Str) (base row : Str)
    (h : readLineProps fs base row = none) :
    (split ' ' row).length < 10 ∨ ∃ k, ∃ e err, (k = 3 ∨ k = 4 ∨ k = 5) ∧
      (split ' ' row)[k]? = some e ∧ readCurve fs base e = .error err := by
  unfold readLineProps at h
  split at h
  · rename_i e0 e1 e2 e3 e4 e5 e6 e7 e8 e9 rest hs
    right
    rw [hs]
    split at h
    · exact ⟨3, e3, _, by simp, by simp, by assumption⟩
    · split at h
      · exact ⟨4, e4, _, by simp, by simp, by assumption⟩
      · split at h
        · exact ⟨5, e5, _, by simp, by simp, by assumption⟩
        · exact absurd h (by simp)
  · left
    rename_i hne
    by_contra hlen
    push Not at hlen
    match hm : split ' ' row, hlen with
    | e0 :: e1 :: e2 :: e3 :: e4 :: e5 :: e6 :: e7 :: e8 :: e9 :: rest, _ =>
      exact hne _ _ _ _ _ _ _ _ _ _ _ hm

/-- The row of the documentation. -/
example : (readLineProps (fun _ => none) [] "Chain 0.1 150.0 1e8 -1 0 2.3 1 1.0 0.5".toList).map
    (fun p => (p.d, p.w, p.Cdn, p.Can, p.Cdt, p.Cat)) =
    some (.fin (1 / 10), .fin 150, .fin (23 / 10), .fin 1, .fin 1, .fin (1 / 2)) := by
  decide +kernel

/-- The length of a line: the one of the input file, or a factor of the distance of its ends. -/
noncomputable def lineLength (U : ℝ) (B : Line) : ℝ :=
  if U < 0 then -U * norm (B.r B.N - B.r 0) else U

theorem area_pos (p : LineProps ℝ) (hd : p.d ≠ 0) : 0 < area p := by
  unfold area
  have := mul_self_pos.2 hd
  have := Real.pi_pos
  rw [mul_assoc]
  positivity

/-- **C82** (length): the segments are equal and add up to the length of the line. -/
theorem C82_length (p : LineProps ℝ) (U : ℝ) (B : Line) (hN : 1 ≤ B.N) :
    ∑ i ∈ range B.N, (mkLine p U B).l i = lineLength U B ∧
      ∀ i j, (mkLine p U B).l i = (mkLine p U B).l j := by
  refine ⟨?_, fun _ _ => rfl⟩
  have : (B.N : ℝ) ≠ 0 := by positivity
  simp only [mkLine, sum_const, card_range, nsmul_eq_mul, lineLength, unstr]
  field_simp

/-- **C82** (mass): the masses of the nodes add up to the mass per unit length times the
length. -/
theorem C82_mass (p : LineProps ℝ) (U : ℝ) (B : Line) (hN : 1 ≤ B.N) (hd : p.d ≠ 0) :
    ∑ i ∈ range (B.N + 1), m (mkLine p U B) i = p.w * lineLength U B := by
  have h := C29_mass (mkLine p U B) hN
  have hl := (C82_length p U B hN).1
  have hA := area_pos p hd
  rw [show (mkLine p U B).N = B.N from rfl] at h
  rw [h, hl, show (mkLine p U B).rho = p.w / area p from rfl, show (mkLine p U B).d = p.d from rfl,
    show Real.pi / 4 * p.d ^ 2 = area p by unfold area; ring, div_mul_cancel₀ _ hA.ne']

/-- **C82** (displacement): the volume of the segments is that of the cylinder. -/
theorem C82_volume (p : LineProps ℝ) (U : ℝ) (B : Line) (hN : 1 ≤ B.N) :
    ∑ i ∈ range B.N, (mkLine p U B).V i = Real.pi / 4 * p.d ^ 2 * lineLength U B := by
  rw [← (C82_length p U B hN).1, mul_sum]
  refine sum_congr rfl fun i _ => ?_
  simp only [mkLine, area]
  ring

/-- **C82** (weight): in air the weight of the line is that of its mass. -/
theorem C82_weight (p : LineProps ℝ) (U : ℝ) (B : Line) (e : Env) (hN : 1 ≤ B.N) (hd : p.d ≠ 0)
    (hF : ∀ i, F (mkLine p U B) e i = 0) :
    ∑ i ∈ range (B.N + 1), W (mkLine p U B) e i = ![0, 0, -(e.g * (p.w * lineLength U B))] := by
  have h := C29_weight (mkLine p U B) e hN
  rw [show (mkLine p U B).N = B.N from rfl] at h
  rw [h]
  simp only [hF, zero_mul, sum_const_zero, mul_zero, sub_zero]
  rw [← mul_sum, (C82_length p U B hN).1, show (mkLine p U B).A = area p from rfl,
    show (mkLine p U B).rho = p.w / area p from rfl, ← mul_assoc (p.w / area p),
    div_mul_cancel₀ _ (area_pos p hd).ne']

/-- **C82** (stiffness): a segment stretched beyond its length has the tension EA times the
strain, along the segment. -/
theorem C82_stiffness (p : LineProps ℝ) (U : ℝ) (B : Line) (i : ℕ) (EA : ℝ) (hEA : p.EA = .const EA)
    (hE0 : 0 ≤ EA) (hd : p.d ≠ 0) (hl : 0 < lineLength U B / B.N)
    (h : lineLength U B / B.N < norm (B.r (i + 1) - B.r i))
    (htol : 100 * eps / 2 < norm (B.r (i + 1) - B.r i)) :
    norm (T (mkLine p U B) i) = EA * (norm (B.r (i + 1) - B.r i) / (lineLength U B / B.N) - 1) ∧
    norm (B.r (i + 1) - B.r i) • T (mkLine p U B) i =
      norm (T (mkLine p U B) i) • (B.r (i + 1) - B.r i) := by
  have hA := area_pos p hd
  have hs : (mkLine p U B).stiff = none := by simp [mkLine, hEA, Coef.fn]
  have hE : (mkLine p U B).E = EA / area p := by simp [mkLine, modulus, hEA]
  obtain ⟨h1, h2⟩ := C30_constant (mkLine p U B) i hl hs (by rw [hE]; positivity) hA.le h htol
  refine ⟨?_, h2⟩
  rw [h1, hE, show (mkLine p U B).A = area p from rfl, div_mul_cancel₀ _ hA.ne']
  rfl

theorem interp_scale (xs ys : List ℝ) (s x : ℝ) :
    MD.Interp.interp xs (ys.map (· / s)) x = (MD.Interp.interp xs ys x).map (· / s) := by
  unfold MD.Interp.interp
  rw [List.length_map]
  by_cases h : ys.length = 1
  · rw [if_pos h, if_pos h, List.getElem?_map]
  · rw [if_neg h, if_neg h]
    cases MD.Interp.interpFactor xs 1 x with
    | none => rfl
    | some jf =>
      simp only [Option.bind_eq_bind, Option.bind_some, MD.Interp.valueAt]
      by_cases hj : jf.1 = 0
      · simp [hj]
      · simp only [hj, if_false, List.getElem?_map]
        cases ys[jf.1 - 1]? <;> cases ys[jf.1]? <;> simp
        ring

/-- **C82** (tabulated stiffness): a stretched segment has the tension that the table gives
for its strain. -/
theorem C82_stiffness_table (p : LineProps ℝ) (U : ℝ) (B : Line) (i : ℕ) (xs ys : List ℝ) (y : ℝ)
    (hEA : p.EA = .table xs ys) (hd : p.d ≠ 0) (hl : 0 < lineLength U B / B.N)
    (h : lineLength U B / B.N < norm (B.r (i + 1) - B.r i))
    (htol : 100 * eps / 2 < norm (B.r (i + 1) - B.r i))
    (hy : MD.Interp.interp xs ys (norm (B.r (i + 1) - B.r i) / (lineLength U B / B.N) - 1) = some y)
    (hy0 : 0 ≤ y) :
    norm (T (mkLine p U B) i) = y ∧
    norm (B.r (i + 1) - B.r i) • T (mkLine p U B) i =
      norm (T (mkLine p U B) i) • (B.r (i + 1) - B.r i) := by
  have hA := area_pos p hd
  have hs : (mkLine p U B).stiff =
      some fun x => (MD.Interp.interp xs (ys.map (· / area p)) x).getD 0 := by
    simp [mkLine, hEA, Coef.fn]
  have hv : (MD.Interp.interp xs (ys.map (· / area p))
      (norm (B.r (i + 1) - B.r i) / (lineLength U B / B.N) - 1)).getD 0 = y / area p := by
    rw [interp_scale, hy]; rfl
  obtain ⟨h1, h2⟩ := C30_tabulated (mkLine p U B) i _ hl hs hA.le h htol
    (by
      change 0 ≤ (MD.Interp.interp xs (ys.map (· / area p))
        (norm (B.r (i + 1) - B.r i) / (lineLength U B / B.N) - 1)).getD 0
      rw [hv]; positivity)
  refine ⟨?_, h2⟩
  rw [h1]
  change area p * (MD.Interp.interp xs (ys.map (· / area p))
        (norm (B.r (i + 1) - B.r i) / (lineLength U B / B.N) - 1)).getD 0 = y
  rw [hv]
  field_simp

/-- **C82** (damping): the damping force of a segment is BA times the rate of strain. -/
theorem C82_damping (p : LineProps ℝ) (U : ℝ) (B : Line) (i : ℕ) (BA : ℝ) (hc : p.c = .const BA)
    (hBA : 0 ≤ BA) (hd : p.d ≠ 0) :
    Td (mkLine p U B) i =
      some ((BA * (ldstr B i / (lineLength U B / B.N))) • qs B i) := by
  have hA := area_pos p hd
  have hdm : (mkLine p U B).damp = none := by simp [mkLine, hc, Coef.fn]
  have hcc : (mkLine p U B).c = BA / area p := by
    simp [mkLine, damping, hc, Coef.value, not_lt.2 hBA]
  unfold Td getNonlinearC
  rw [hdm]
  simp only [Option.bind_eq_bind, Option.bind_some, Option.pure_def, hcc]
  change some ((BA / area p * area p * ldstr B i / (lineLength U B / B.N)) • qs B i) = _
  rw [div_mul_cancel₀ _ hA.ne', mul_div_assoc]

/-- **C82** (damping ratio): with a negative entry `-zeta` the damping force of a segment is
`zeta` times the critical damping of the segment, two half masses joined by its stiffness:
`2 sqrt(k mu)` with the stiffness `k = EA / l` and the reduced mass `mu` of two masses
`w l / 2`. -/
theorem C82_damping_ratio (p : LineProps ℝ) (U : ℝ) (B : Line) (i : ℕ) (zeta EA : ℝ)
    (hc : p.c = .const (-zeta)) (hz : 0 < zeta) (hEA : p.EA = .const EA) (hE0 : 0 ≤ EA)
    (hw : 0 < p.w) (hd : p.d ≠ 0) (hl : 0 < lineLength U B / B.N) :
    let l := lineLength U B / B.N
    let half := p.w * l / 2
    let mu := half * half / (half + half)
    let k := EA / l
    Td (mkLine p U B) i = some ((zeta * (2 * Real.sqrt (k * mu)) * ldstr B i) • qs B i) := by
  intro l half mu k
  have hA := area_pos p hd
  have hdm : (mkLine p U B).damp = none := by simp [mkLine, hc, Coef.fn]
  have hcc : (mkLine p U B).c = zeta * l * Real.sqrt (EA / area p * (p.w / area p)) := by
    simp only [mkLine, damping, hc, Coef.value, modulus, hEA]
    rw [if_pos (by linarith), neg_neg, mul_div_assoc]
    rfl
  have hl0 : l ≠ 0 := hl.ne'
  have hkm : k * mu = EA * p.w / 4 := by
    simp only [k, mu, half]
    field_simp
    ring
  have hs1 : Real.sqrt (EA / area p * (p.w / area p)) * area p = Real.sqrt (EA * p.w) := by
    rw [show EA / area p * (p.w / area p) = EA * p.w / area p ^ 2 by field_simp,
      Real.sqrt_div' _ (sq_nonneg _), Real.sqrt_sq hA.le, div_mul_cancel₀ _ hA.ne']
  have hs2 : 2 * Real.sqrt (k * mu) = Real.sqrt (EA * p.w) := by
    rw [hkm, Real.sqrt_div' _ (by norm_num), show (4 : ℝ) = 2 ^ 2 by norm_num,
      Real.sqrt_sq (by norm_num)]
    ring
  unfold Td getNonlinearC
  rw [hdm]
  simp only [Option.bind_eq_bind, Option.bind_some, Option.pure_def, hcc]
  change some ((zeta * l * Real.sqrt (EA / area p * (p.w / area p)) * area p * ldstr B i / l) •
    qs B i) = _
  rw [mul_assoc (zeta * l), hs1, hs2]
  congr 2
  field_simp

/-- **C82** (tabulated damping, not documented): the force is the cross section times the
ordinate, unlike that of a tabulated stiffness. -/
theorem C82_damping_table (p : LineProps ℝ) (U : ℝ) (B : Line) (i : ℕ) (x0 : ℝ) (xs ys : List ℝ)
    (y : ℝ) (hc : p.c = .table (x0 :: xs) ys) (hx0 : x0 < 0) (hl : 0 < lineLength U B / B.N)
    (hr : ldstr B i ≠ 0)
    (hy : MD.Interp.interp (x0 :: xs) ys (ldstr B i / (lineLength U B / B.N)) = some y) :
    Td (mkLine p U B) i = some ((area p * y) • qs B i) := by
  have hdm : (mkLine p U B).damp =
      some fun x => (MD.Interp.interp (x0 :: xs) (ys.map (· / 1)) x).getD 0 := by
    simp only [mkLine, hc, Coef.fn]
  have hneg : (mkLine p U B).dampNeg = true := by simp [mkLine, hc, hx0]
  have hX : ldstr B i / (lineLength U B / B.N) ≠ 0 := div_ne_zero hr hl.ne'
  have hv : (MD.Interp.interp (x0 :: xs) (ys.map (· / 1))
      (ldstr B i / (lineLength U B / B.N))).getD 0 = y := by
    rw [interp_scale, hy]; simp
  unfold Td getNonlinearC
  rw [hdm, hneg]
  simp only [if_true]
  change ((if ldstr B i / (lineLength U B / B.N) = 0 then none else
    some ((MD.Interp.interp (x0 :: xs) (ys.map (· / 1))
      (ldstr B i / (lineLength U B / B.N))).getD 0 / (ldstr B i / (lineLength U B / B.N)))) >>=
    fun c => pure ((c * area p * ldstr B i / (lineLength U B / B.N)) • qs B i)) = _
  rw [if_neg hX, hv]
  simp only [Option.bind_eq_bind, Option.bind_some, Option.pure_def]
  congr 2
  have hl' := hl.ne'
  generalize lineLength U B / B.N = l at hl' ⊢
  field_simp

theorem adjacent_inner (N : ℕ) (f : ℕ → ℝ) (i : ℕ) (h0 : i ≠ 0) (hN : i ≠ N) :
    adjacent N f i = f i + f (i - 1) := by
  unfold adjacent
  rw [if_neg h0, if_neg hN]

/-- **C82** (drag and added mass): at a node between two submerged segments the drag refers to
the frontal area `d l` (Cd) and to the surface `π d l` (CdAx), the added mass to the displaced
mass of `l` of line (Ca, CaAx); `u` is the velocity of the water relative to the node, `t` the
direction of the line there. -/
theorem C82_hydrodynamics (p : LineProps ℝ) (U : ℝ) (B : Line) (e : Env) (i : ℕ) (h0 : i ≠ 0)
    (hN : i ≠ B.N) (hd : p.d ≠ 0) (hF : F (mkLine p U B) e i = 1)
    (hF' : F (mkLine p U B) e (i - 1) = 1) :
    let l := lineLength U B / B.N
    let t := q (mkLine p U B) i
    let u := e.U i - B.rd i
    let ut := (u ⬝ᵥ t) • t
    Dp (mkLine p U B) e i = (1 / 2 * e.rho_w * p.Cdn * (p.d * l) * norm (u - ut)) • (u - ut) ∧
    Dq (mkLine p U B) e i = (1 / 2 * e.rho_w * p.Cdt * (Real.pi * p.d * l) * norm ut) • ut ∧
    M (mkLine p U B) e i = (p.w * l) • (1 : MD.Mat.M3 ℝ) +
      (e.rho_w * (Real.pi / 4 * p.d ^ 2 * l)) •
        (p.Can • (1 - vecMulVec t t) + p.Cat • vecMulVec t t) := by
  intro l t u ut
  have hA := area_pos p hd
  have hvq : vq (mkLine p U B) e i = ut := rfl
  have hvp : vp (mkLine p U B) e i = u - ut := rfl
  have hln : ∀ j, (mkLine p U B).l j = l := fun _ => rfl
  have hVn : ∀ j, (mkLine p U B).V j = l * area p := fun _ => rfl
  have hNN : (mkLine p U B).N = B.N := rfl
  refine ⟨?_, ?_, ?_⟩
  · unfold Dp
    rw [hvp, hNN, adjacent_inner _ _ _ h0 hN, hF, hF', hln, hln]
    congr 1
    change 1 / 4 * norm (u - ut) * e.rho_w * p.Cdn * p.d * (1 * l + 1 * l) = _
    ring
  · unfold Dq
    rw [hvq, hNN, adjacent_inner _ _ _ h0 hN, hF, hF', hln, hln]
    congr 1
    change 1 / 4 * norm ut * e.rho_w * p.Cdt * Real.pi * p.d * (1 * l + 1 * l) = _
    ring
  · have hm : m (mkLine p U B) i = p.w * l := by
      unfold m
      rw [hNN, adjacent_inner _ _ _ h0 hN, hln, hln]
      change Real.pi / 8 * (p.d * p.d * (p.w / area p) * (l + l)) = _
      rw [show Real.pi / 8 * (p.d * p.d * (p.w / area p) * (l + l)) =
        p.w / area p * area p * l by unfold area; ring, div_mul_cancel₀ _ hA.ne']
    have hv : v (mkLine p U B) e i = Real.pi / 4 * p.d ^ 2 * l := by
      unfold v
      rw [hNN, adjacent_inner _ _ _ h0 hN, hF, hF', hVn, hVn]
      unfold area
      ring
    unfold M
    rw [hm, hv]
    rfl

/-- **C81** fails for lines whose length is given relative to the distance of their ends (a
negative number in the input file): the step that such a line allows to the stationary solver
is negative, the solver moves against the accelerations. -/
theorem C81_relative_length_false (U cfl v : ℝ) (N : ℕ) (hU : U < 0) (hN : 1 ≤ N) (hc : 0 < cfl)
    (hv : 0 < v) : cfl2dtV (cflLength U N) cfl v < 0 := by
  have : (0 : ℝ) < N := by positivity
  unfold cfl2dtV cflLength
  have h1 : U / N < 0 := div_neg_of_neg_of_pos hU this
  exact div_neg_of_neg_of_pos (mul_neg_of_pos_of_neg hc h1) hv

/-- A line of two segments of 1 m, stretched to 2 m and 1 m; a type with EA = 10 N. -/
noncomputable def chain : LineProps ℝ :=
  ⟨[], 1, 3, .const 10, .const (-1 / 2), .const 0, 1, 1, 1, 1⟩

theorem chain_length : lineLength 2 elbow = 2 := by
  unfold lineLength; norm_num

/-- Non-vacuity of the theorems about lengths, masses, stiffness and damping. -/
example : ∑ i ∈ range 3, m (mkLine chain 2 elbow) i = 6 ∧
    norm (T (mkLine chain 2 elbow) 0) = 10 := by
  have hN : elbow.N = 2 := rfl
  have h0 : lstr elbow 0 = 2 := congrArg Prod.snd elbowP_qs0
  rw [lstr_eq] at h0
  have hl : lineLength 2 elbow / elbow.N = 1 := by rw [chain_length, hN]; norm_num
  constructor
  · have := C82_mass chain 2 elbow (by rw [hN]; norm_num) (by norm_num [chain])
    rw [chain_length] at this
    rw [show (3 : ℕ) = elbow.N + 1 from rfl, this]
    norm_num [chain]
  · have := (C82_stiffness chain 2 elbow 0 10 rfl (by norm_num) (by norm_num [chain])
      (by rw [hl]; norm_num) (by rw [hl, h0]; norm_num)
      (by rw [h0]; have := tol_lt_one; linarith)).1
    rw [this, hl, h0]
    norm_num

/-- Non-vacuity: a factor of the distance. -/
example : cfl2dtV (cflLength (-21 / 20) 20) (1 / 2) 3 < 0 :=
  C81_relative_length_false _ _ _ _ (by norm_num) (by norm_num) (by norm_num) (by norm_num)

end MD.Mooring.LineType
