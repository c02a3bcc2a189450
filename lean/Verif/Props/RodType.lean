import Verif.Model.RodType
import Verif.Props.Rod
import Verif.Props.RodMass

/-!
# Property C82: the columns of the rod types mean what the documentation says
-/

set_option linter.unusedSimpArgs false
set_option linter.unusedVariables false

namespace MD.Rods.RodType

open MD.Text MD.Reader MD.Mooring MD.Mat Finset Matrix

/-- **C82** (columns of rods): a row of at least seven entries gives the quantities of the
documented columns, in the documented order: name, diameter, mass, Cd, Ca, CdEnd, CaEnd. -/
theorem C82_rod_columns (row name diam mass cd ca cdEnd caEnd : Str) (rest : List Str)
    (h : split ' ' row = [name, diam, mass, cd, ca, cdEnd, caEnd] ++ rest) :
    ∃ p, readRodProps row = some p ∧ p.type = name ∧ p.d = atof diam ∧ p.w = atof mass ∧
      p.Cdn = atof cd ∧ p.Can = atof ca ∧ p.CdEnd = atof cdEnd ∧ p.CaEnd = atof caEnd ∧
      p.Cat = .fin 0 := by
  refine ⟨⟨name, atof diam, atof mass, atof ca, .fin 0, atof cd, .fin 0, atof caEnd, atof cdEnd⟩,
    ?_, rfl, rfl, rfl, rfl, rfl, rfl, rfl, rfl⟩
  unfold readRodProps
  rw [h]
  rfl

/-- **C82** (failures): otherwise there is no rod type. -/
theorem C82_rod_columns_fail (row : Str) (h : readRodProps row = none) :
    (split ' ' row).length < 7 := by
  unfold readRodProps at h
  split at h
  · exact absurd h (by simp)
  · rename_i hne
    by_contra hlen
    push Not at hlen
    match hm : split ' ' row, hlen with
    | e0 :: e1 :: e2 :: e3 :: e4 :: e5 :: e6 :: rest, _ => exact hne _ _ _ _ _ _ _ _ hm

/-- The row of the documentation. -/
example : (readRodProps "Buoy 10 1.0e3 0.6 1.0 1.2 1.0".toList).map
    (fun p => (p.d, p.w, p.Cdn, p.Can, p.CdEnd, p.CaEnd)) =
    some (.fin 10, .fin 1000, .fin (6 / 10), .fin 1, .fin (12 / 10), .fin 1) := by
  decide +kernel

/-- **C82** (mass of rods): the masses of the nodes add up to the mass per unit length times the
distance of the ends, in particular for any number of segments. -/
theorem C82_rod_mass (p : RodProps ℝ) (n : ℕ) (A B : V) (R : Rod) (hn : 1 ≤ n) (hd : p.d ≠ 0) :
    ∑ i ∈ range (n + 1), m (mkRod p n A B R) i = p.w * Mooring.norm (B - A) := by
  have hN : (mkRod p n A B R).N ≠ 0 := by change n ≠ 0; omega
  have h := sum_m hN
  rw [show (mkRod p n A B R).N = n from rfl] at h
  rw [h]
  unfold mass
  have hU : (mkRod p n A B R).UnstrLen = Mooring.norm (B - A) := by
    change (if n = 0 then 0 else (unitvector A B).2) = _
    rw [if_neg (by omega)]; rfl
  rw [hU, show (mkRod p n A B R).rho = p.w / (Real.pi / 4 * p.d * p.d) from rfl,
    show (mkRod p n A B R).d = p.d from rfl]
  have := Real.pi_pos.ne'
  field_simp

/-- **C82** (weight of rods). -/
theorem C82_rod_weight (p : RodProps ℝ) (n : ℕ) (A B : V) (R : Rod) (e : Env) (hn : 1 ≤ n)
    (hd : p.d ≠ 0) :
    ∑ i ∈ range (n + 1), W (mkRod p n A B R) e i =
      ![0, 0, -(e.g * (p.w * Mooring.norm (B - A)))] := by
  have h := C82_rod_mass p n A B R hn hd
  have : ∀ i, W (mkRod p n A B R) e i =
      m (mkRod p n A B R) i • ![0, 0, -e.g] := by
    intro i
    unfold W
    rw [if_neg (by change n ≠ 0; omega)]
    ext k; fin_cases k <;> simp
  simp only [this]
  rw [← sum_smul, h]
  ext k; fin_cases k <;> simp
  ring

theorem sum_v {R : Rod} (hN : R.N ≠ 0) :
    ∑ i ∈ range (R.N + 1), v R i = Real.pi / 4 * R.d ^ 2 * R.UnstrLen := by
  have : ∀ i, v R i = Real.pi / 4 * R.d ^ 2 * dL R i := by
    intro i
    unfold v dL segV
    rw [if_neg hN]
    split_ifs <;> ring
  simp only [this]
  rw [← mul_sum, sum_dL hN]

/-- **C82** (drag and added mass of rods): for a submerged rod that translates in uniform water,
`u` being the velocity of the water relative to it, `t` its axis and `L` the distance of its
ends: Cd refers to the frontal area `d L` and the velocity across the axis, Ca to the displaced
mass, CdEnd to the cross section and CaEnd to the half sphere at each of the two ends. -/
theorem C82_rod_hydrodynamics (p : RodProps ℝ) (n : ℕ) (A B : V) (R : Rod) (e : Env)
    (uw : V) (hU : ∀ i, e.U i = uw) (hw : R.w = 0) (hCat : p.Cat = 0)
    (hR : Proper (mkRod p n A B R)) (hs : Submerged (mkRod p n A B R) e) {a : ℝ × ℝ}
    (ha : angles (mkRod p n A B R) = some a) :
    let L := Mooring.norm (B - A)
    let t := R.q
    let u := uw - R.vA
    let ut := (u ⬝ᵥ t) • t
    let D := p.d
    ∑ i ∈ range (n + 1), Dp (mkRod p n A B R) e a.1 i =
      (1 / 2 * e.rho_w * p.Cdn * (D * L) * Mooring.norm (u - ut)) • (u - ut) ∧
    ∑ i ∈ range (n + 1), Dq (mkRod p n A B R) e a.1 i =
      (2 * (1 / 2 * e.rho_w * p.CdEnd * (Real.pi / 4 * D ^ 2)) * Mooring.norm ut) • ut ∧
    ∑ i ∈ range (n + 1), addedM (mkRod p n A B R) e a.1 i =
      (e.rho_w * (Real.pi / 4 * D ^ 2 * L) * p.Can) • (1 - vecMulVec t t) +
      (2 * (e.rho_w * (1 / 2 * (4 / 3 * Real.pi * (D / 2) ^ 3)) * p.CaEnd)) • vecMulVec t t := by
  intro L t u ut D
  set S := mkRod p n A B R with hS
  have hN : S.N = n := rfl
  have hn0 : n ≠ 0 := hR.hN
  have hL : S.UnstrLen = L := by
    change (if n = 0 then 0 else (unitvector A B).2) = _
    rw [if_neg hn0]; rfl
  have hrd : ∀ i, rd S i = R.vA := by
    intro i
    unfold rd
    have hwS : S.w = 0 := hw
    have hvS : S.vA = R.vA := rfl
    simp only [hwS, hvS, LinearMap.map_zero, LinearMap.zero_apply, add_zero, sub_self, smul_zero,
      ite_self]
  have hvi : ∀ i, vi S e i = u := by
    intro i; unfold vi; rw [hU, hrd]
  have hvq : ∀ i, vq S e i = ut := by
    intro i; unfold vq; rw [hvi]; rfl
  have hvp : ∀ i, vp S e i = u - ut := by
    intro i; unfold vp; rw [hvi, hvq]
  have hvof : ∀ i ∈ range (n + 1), vof S e a.1 i = 1 := fun i hi =>
    vof_submerged hR hs ha (by rw [mem_range] at hi; rw [hN]; omega)
  have hwet : ∀ i ∈ range (n + 1), endWet S e a.1 i := fun i hi =>
    endWet_submerged hR hs ha (by rw [mem_range] at hi; rw [hN]; omega)
  have hD : S.d = D := rfl
  have hCd : S.Cdn = p.Cdn := rfl
  have hCdE : S.CdEnd = p.CdEnd := rfl
  have hCa : S.Can = p.Can := rfl
  have hCt : S.Cat = 0 := hCat
  have hCaE : S.CaEnd = p.CaEnd := rfl
  refine ⟨?_, ?_, ?_⟩
  · have : ∀ i ∈ range (n + 1), Dp S e a.1 i =
        dL S i • ((1 / 2 * e.rho_w * p.Cdn * D * Mooring.norm (u - ut)) • (u - ut)) := by
      intro i hi
      unfold Dp
      rw [if_neg hR.hN, hvp, hvof i hi, hCd, hD, smul_smul]
      congr 1
      ring
    rw [sum_congr rfl this, ← sum_smul]
    have h := sum_dL hR.hN
    rw [hN] at h
    rw [h, hL, smul_smul]
    congr 1
    ring
  · have : ∀ i ∈ range (n + 1), Dq S e a.1 i =
        (if i = 0 then (1 / 2 * area S * e.rho_w * p.CdEnd * Mooring.norm ut) • ut else 0) +
        (if i = n then (1 / 2 * area S * e.rho_w * p.CdEnd * Mooring.norm ut) • ut else 0) := by
      intro i hi
      unfold Dq
      simp only [hwet i hi, and_true, hvof i hi, hvq, hCdE, mul_one]
      rfl
    rw [sum_congr rfl this]
    rw [sum_caps (fun _ : ℕ => (1 / 2 * area S * e.rho_w * p.CdEnd * Mooring.norm ut) • ut)
      (fun _ : ℕ => (1 / 2 * area S * e.rho_w * p.CdEnd * Mooring.norm ut) • ut) n, ← add_smul]
    congr 1
    unfold area
    rw [hD]
    ring
  · have : ∀ i ∈ range (n + 1), addedM S e a.1 i =
        v S i • ((e.rho_w * p.Can) • (1 - vecMulVec t t)) +
        ((if i = 0 then (e.rho_w * p.CaEnd * VEnd S) • vecMulVec t t else 0) +
        (if i = n then (e.rho_w * p.CaEnd * VEnd S) • vecMulVec t t else 0)) := by
      intro i hi
      unfold addedM
      simp only [hwet i hi, and_true, hvof i hi, hCa, hCt, hCaE, one_mul, zero_smul, add_zero]
      rw [add_assoc, smul_smul, smul_smul]
      congr 2
      ring
    rw [sum_congr rfl this, sum_add_distrib, ← sum_smul]
    have h := sum_v hR.hN
    rw [hN] at h
    rw [h, sum_caps (fun _ : ℕ => (e.rho_w * p.CaEnd * VEnd S) • vecMulVec t t)
      (fun _ : ℕ => (e.rho_w * p.CaEnd * VEnd S) • vecMulVec t t) n, ← add_smul, smul_smul, hL, hD]
    unfold VEnd
    rw [hD]
    congr 2 <;> ring

/-- A type of rod of 2 m of diameter. -/
noncomputable def buoyType : RodProps ℝ := ⟨[], 2, 1000, 1, 0, 1, 0, 1, 1⟩

/-- Non-vacuity: an inclined rod of two segments between two ends 10 m apart, in a current. -/
example : let S := mkRod buoyType 2 0 ![6, 0, 8] (spar (-20))
    Proper S ∧ Submerged S still ∧ (∃ a, angles S = some a) ∧
    ∑ i ∈ range 3, m S i = 10000 := by
  have hl : Mooring.norm (![6, 0, 8] - 0) = 10 := by
    unfold Mooring.norm
    rw [show (![6, 0, 8] - 0 : V) ⬝ᵥ (![6, 0, 8] - 0) = 10 ^ 2 by
      simp [dotProduct, Fin.sum_univ_three]; norm_num]
    exact Real.sqrt_sq (by norm_num)
  have hU : (mkRod buoyType 2 0 ![6, 0, 8] (spar (-20))).UnstrLen = 10 := by
    change (if 2 = 0 then 0 else (unitvector 0 ![6, 0, 8]).2) = 10
    rw [if_neg (by norm_num), ← hl]
    rfl
  have hP : Proper (mkRod buoyType 2 0 ![6, 0, 8] (spar (-20))) :=
    ⟨by change (2 : ℕ) ≠ 0; norm_num, by norm_num [mkRod, buoyType], by rw [hU]; norm_num,
      (spar_proper (-20)).hq⟩
  have hsq : Real.sqrt ((3 / 5 : ℝ) * (3 / 5) + 0 * 0) = 3 / 5 := by
    rw [show (3 / 5 : ℝ) * (3 / 5) + 0 * 0 = (3 / 5) ^ 2 by norm_num]
    exact Real.sqrt_sq (by norm_num)
  refine ⟨hP, ?_, angles_isSome hP, ?_⟩
  · intro s h0 h1
    rw [hU] at h1
    have : halfHeight (mkRod buoyType 2 0 ![6, 0, 8] (spar (-20))) = 3 / 5 := by
      change (2 : ℝ) / 2 * Real.sqrt ((3 / 5 : ℝ) * (3 / 5) + 0 * 0) = 3 / 5
      rw [hsq]; norm_num
    rw [this]
    change (axisPoint (spar (-20)) s) 2 + 3 / 5 < still.zeta 2
    simp [axisPoint, spar, still]
    linarith
  · have := C82_rod_mass buoyType 2 0 ![6, 0, 8] (spar (-20)) (by norm_num) (by norm_num [buoyType])
    rw [hl] at this
    refine this.trans ?_
    norm_num [buoyType]

end MD.Rods.RodType
