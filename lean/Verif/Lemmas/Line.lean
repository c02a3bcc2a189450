import Verif.Model.Line
import Mathlib.Algebra.BigOperators.Group.Finset.Basic
import Mathlib.Algebra.BigOperators.Intervals
import Mathlib.Algebra.Order.BigOperators.Group.Finset
import Mathlib.Tactic.Ring
import Mathlib.Tactic.LinearCombination
import Mathlib.Tactic.FinCases
import Mathlib.Tactic.NormNum
import Mathlib.Tactic.Positivity
import Mathlib.Tactic.Linarith
import Mathlib.Tactic.FieldSimp
import Mathlib.Tactic.Module

/-!
# Lemmas on vectors and on sums over the nodes of a line
-/

set_option linter.unusedSimpArgs false

namespace MD.Mooring

open Matrix MD.Mat Finset

theorem dot_self_nonneg (v : V) : 0 ≤ v ⬝ᵥ v := by
  simp only [dotProduct, Fin.sum_univ_three]
  have := mul_self_nonneg (v 0); have := mul_self_nonneg (v 1); have := mul_self_nonneg (v 2)
  linarith

theorem norm_nonneg (v : V) : 0 ≤ norm v := Real.sqrt_nonneg _

theorem norm_sq (v : V) : norm v ^ 2 = v ⬝ᵥ v := Real.sq_sqrt (dot_self_nonneg v)

theorem norm_smul (c : ℝ) (v : V) : norm (c • v) = |c| * norm v := by
  rw [norm, norm, dotProduct_smul, smul_dotProduct, smul_eq_mul, smul_eq_mul, ← mul_assoc,
    Real.sqrt_mul (mul_self_nonneg c), Real.sqrt_mul_self_eq_abs]

theorem tol_pos : 0 < 100 * eps / 2 := by unfold eps; positivity

theorem tol_lt_one : 100 * eps / 2 < 1 := by unfold eps; norm_num

/-- `EqualRealNos(x, 0)` means a size below the tolerance -/
theorem equalRealNos_zero (x : ℝ) : EqualRealNos x 0 ↔ |x| ≤ 100 * eps / 2 := by
  have h0 := tol_pos
  have h1 := tol_lt_one
  unfold EqualRealNos
  rw [sub_zero, add_zero]
  rcases le_total |x| 1 with h | h
  · rw [max_eq_right h, one_mul]
  · rw [max_eq_left h]
    constructor <;> intro h' <;> nlinarith

theorem lstr_eq (L : Line) (i : ℕ) : lstr L i = norm (L.r (i + 1) - L.r i) := rfl

theorem lstr_nonneg (L : Line) (i : ℕ) : 0 ≤ lstr L i := norm_nonneg _

/-- `unitvector` gives the direction -/
theorem unitvector_parallel (a b : V) : ∃ k : ℝ, 0 < k ∧ (unitvector a b).1 = k • (b - a) := by
  unfold unitvector
  dsimp only
  split
  · exact ⟨1, one_pos, by rw [one_smul]⟩
  · rename_i h
    rw [equalRealNos_zero, abs_of_nonneg (norm_nonneg _)] at h
    exact ⟨1 / norm (b - a), one_div_pos.2 (tol_pos.trans (not_le.1 h)), rfl⟩

theorem unitvector_unit (a b : V) (h : 100 * eps / 2 < norm (b - a)) :
    (unitvector a b).1 ⬝ᵥ (unitvector a b).1 = 1 ∧ norm (b - a) • (unitvector a b).1 = b - a := by
  have hn : ¬ EqualRealNos (norm (b - a)) 0 := by
    rw [equalRealNos_zero, abs_of_nonneg (norm_nonneg _)]; exact not_le.2 h
  have hp : 0 < norm (b - a) := tol_pos.trans h
  unfold unitvector
  dsimp only
  rw [if_neg hn]
  constructor
  · rw [dotProduct_smul, smul_dotProduct, ← norm_sq]
    simp only [smul_eq_mul]
    field_simp
  · rw [smul_smul]
    have : norm (b - a) * (1 / norm (b - a)) = 1 := by field_simp
    rw [this, one_smul]

theorem qs_unit (L : Line) (i : ℕ) (h : 100 * eps / 2 < lstr L i) : qs L i ⬝ᵥ qs L i = 1 :=
  (unitvector_unit _ _ h).1

theorem lstr_smul_qs (L : Line) (i : ℕ) (h : 100 * eps / 2 < lstr L i) :
    lstr L i • qs L i = L.r (i + 1) - L.r i := (unitvector_unit _ _ h).2

/-! ## Sums over nodes -/

/-- Each segment is adjacent to two nodes. -/
theorem sum_adjacent (N : ℕ) (hN : 1 ≤ N) (f : ℕ → ℝ) :
    ∑ i ∈ range (N + 1), adjacent N f i = 2 * ∑ i ∈ range N, f i := by
  obtain ⟨n, rfl⟩ : ∃ n, N = n + 1 := ⟨N - 1, by omega⟩
  have h1 : ∀ i ∈ range n, adjacent (n + 1) f (i + 1) = f (i + 1) + f i := by
    intro i hi
    have := mem_range.1 hi
    simp only [adjacent, if_neg (Nat.succ_ne_zero i), if_neg (show i + 1 ≠ n + 1 by omega),
      Nat.add_sub_cancel]
  rw [sum_range_succ, sum_range_succ', sum_congr rfl h1, sum_add_distrib]
  have h2 : adjacent (n + 1) f 0 = f 0 := if_pos rfl
  have h3 : adjacent (n + 1) f (n + 1) = f n := by
    simp only [adjacent, if_neg (Nat.succ_ne_zero n), Nat.add_sub_cancel, if_true]
  rw [h2, h3]
  have h4 : ∑ i ∈ range (n + 1), f i = ∑ i ∈ range n, f (i + 1) + f 0 := sum_range_succ' f n
  have h5 : ∑ i ∈ range (n + 1), f i = ∑ i ∈ range n, f i + f n := sum_range_succ f n
  linarith

/-- Force of the segments on the nodes, as in the three branches of the code: what is applied to
one end of a segment is taken from the other. -/
def pairwise (N : ℕ) (X : ℕ → V) (i : ℕ) : V :=
  if i = 0 then X 0 else if i = N then -X (N - 1) else X i - X (i - 1)

theorem sum_pairwise {E : Type*} [AddCommGroup E] [Module ℝ E] (N : ℕ) (hN : 1 ≤ N) (X : ℕ → V)
    (φ : ℕ → V →ₗ[ℝ] E) :
    ∑ i ∈ range (N + 1), φ i (pairwise N X i) =
      ∑ i ∈ range N, (φ i (X i) - φ (i + 1) (X i)) := by
  obtain ⟨n, rfl⟩ : ∃ n, N = n + 1 := ⟨N - 1, by omega⟩
  have h1 : ∀ i ∈ range n, φ (i + 1) (pairwise (n + 1) X (i + 1)) =
      φ (i + 1) (X (i + 1)) - φ (i + 1) (X i) := by
    intro i hi
    have := mem_range.1 hi
    simp only [pairwise, if_neg (Nat.succ_ne_zero i), if_neg (show i + 1 ≠ n + 1 by omega),
      Nat.add_sub_cancel, map_sub]
  rw [sum_range_succ, sum_range_succ', sum_congr rfl h1, sum_sub_distrib, sum_sub_distrib]
  have h2 : pairwise (n + 1) X 0 = X 0 := if_pos rfl
  have h3 : pairwise (n + 1) X (n + 1) = -X n := by
    simp only [pairwise, if_neg (Nat.succ_ne_zero n), Nat.add_sub_cancel, if_true]
  rw [h2, h3, map_neg, sum_range_succ' (fun i => φ i (X i)) n,
    sum_range_succ (fun i => φ (i + 1) (X i)) n]
  module

/-- Adding at one index -/
theorem sum_addAt {E : Type*} [AddCommGroup E] [Module ℝ E] (n : ℕ) (a : ℕ → V) (k : ℕ)
    (hk : k ≤ n) (x : V) (φ : ℕ → V →ₗ[ℝ] E) :
    ∑ i ∈ range (n + 1), φ i (addAt a k x i) = ∑ i ∈ range (n + 1), φ i (a i) + φ k x := by
  have h : ∀ i, φ i (addAt a k x i) = φ i (a i) + if i = k then φ k x else 0 := by
    intro i
    unfold addAt
    split
    · rename_i h; subst h; rw [map_add]
    · rw [add_zero]
  rw [sum_congr rfl (fun i _ => h i), sum_add_distrib, sum_ite_eq' (range (n + 1)) k,
    if_pos (mem_range.2 (by omega))]

/-! ## Bending -/

section Bending

variable {E : Type*} [AddCommGroup E] [Module ℝ E]

/-- What the bending moment of node `i` adds to a sum over the nodes of linear functions of the
forces -/
noncomputable def bendTerm (L : Line) (φ : ℕ → V →ₗ[ℝ] E) (i : ℕ) : E :=
  let k := Kurv L i * getNonlinearEI L (Kurv L i)
  if i = 0 then
    if L.endTypeA = .CANTILEVERED then (k / lstr L 0) • (φ 1 - φ 0) (qs L 0 ⨯₃ pvec L 0) else 0
  else if i = L.N then
    if L.endTypeB = .CANTILEVERED then
      (k / lstr L (i - 1)) • (φ (i - 1) - φ i) (qs L (i - 1) ⨯₃ pvec L i)
    else 0
  else (k / lstr L (i - 1)) • (φ (i - 1) - φ i) (qs L (i - 1) ⨯₃ pvec L i) +
    (k / lstr L i) • (φ (i + 1) - φ i) (qs L i ⨯₃ pvec L i)

theorem bendNode_sum (L : Line) (hN : 1 ≤ L.N) (φ : ℕ → V →ₗ[ℝ] E) (a : ℕ → V) (i : ℕ)
    (hi : i ≤ L.N) :
    ∑ j ∈ range (L.N + 1), φ j (bendNode L a i j) =
      ∑ j ∈ range (L.N + 1), φ j (a j) + bendTerm L φ i := by
  unfold bendNode bendTerm
  dsimp only
  by_cases h : EqualRealNos (Kurv L i) 0
  · have hp : pvec L i = 0 := by unfold pvec; rw [if_pos h]
    rw [if_pos h]
    by_cases h0 : i = 0
    · subst h0
      rw [if_pos rfl, hp]
      split <;> simp
    · rw [if_neg h0, hp]
      split
      · split <;> simp
      · simp
  · rw [if_neg h]
    by_cases h0 : i = 0
    · subst h0
      rw [if_pos rfl, if_pos rfl]
      split
      · rw [sum_addAt _ _ _ (by omega), sum_addAt _ _ _ (by omega)]
        simp only [map_neg, map_smul, LinearMap.sub_apply]
        module
      · rw [add_zero]
    · rw [if_neg h0, if_neg h0]
      by_cases h1 : i = L.N
      · rw [if_pos h1, if_pos h1]
        split
        · rw [sum_addAt _ _ _ (by omega), sum_addAt _ _ _ (by omega)]
          simp only [map_neg, map_smul, LinearMap.sub_apply]
          module
        · rw [add_zero]
      · rw [if_neg h1, if_neg h1, sum_addAt _ _ _ (by omega), sum_addAt _ _ _ (by omega),
          sum_addAt _ _ _ (by omega)]
        simp only [map_neg, map_smul, map_sub, LinearMap.sub_apply]
        module

theorem Bs_sum (L : Line) (hN : 1 ≤ L.N) (hEI : isEI L) (φ : ℕ → V →ₗ[ℝ] E) :
    ∑ j ∈ range (L.N + 1), φ j (Bs L j) = ∑ i ∈ range (L.N + 1), bendTerm L φ i := by
  have h : ∀ n, n ≤ L.N + 1 → ∑ j ∈ range (L.N + 1),
      φ j ((List.range n).foldl (bendNode L) (fun _ => 0) j) = ∑ i ∈ range n, bendTerm L φ i := by
    intro n
    induction n with
    | zero => intro _; simp
    | succ n ih =>
      intro hn
      rw [List.range_succ, List.foldl_append, sum_range_succ (fun i => bendTerm L φ i) n,
        ← ih (by omega)]
      exact bendNode_sum L hN φ _ n (by omega)
  unfold Bs
  rw [if_pos hEI]
  exact h _ (le_refl _)

end Bending

theorem norm_eq (v : V) (x : ℝ) (hx : 0 ≤ x) (h : v ⬝ᵥ v = x * x) : norm v = x := by
  rw [norm, h, Real.sqrt_mul_self hx]

end MD.Mooring
