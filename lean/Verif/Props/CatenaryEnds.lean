/-
C39: what a successful answer of the catenary solver (source/QSlines.hpp) tells: end positions,
end tensions, weight, seabed; and a successful answer that is far from the fairlead.
-/
import Verif.Props.CatenaryShape

set_option linter.unusedSimpArgs false

namespace MD.Catenary

/-! ### The tensions at the ends carry the weight -/

/-- A length `a` of the line is on the seabed (none for a suspended line): the difference of the
vertical tensions is the weight of the rest, the difference of the horizontal tensions is the
friction on it, which is fully mobilised unless the anchor has no tension at all. -/
theorem C39_weight (p : Par) (HF VF : ℝ) (hH : 0 < HF) (hW : p.W ≠ 0) :
    ∃ a, 0 ≤ a ∧ (0 ≤ p.L → 0 < VF → 0 < p.W → a ≤ p.L) ∧
      VF - (anchor p HF VF).2 = p.W * (p.L - a) ∧
      (a = 0 ∨ (anchor p HF VF).2 = 0) ∧
      0 ≤ HF - (anchor p HF VF).1 ∧ HF - (anchor p HF VF).1 ≤ max p.CB 0 * |p.W| * a ∧
      (HF - (anchor p HF VF).1 = max p.CB 0 * |p.W| * a ∨ anchor p HF VF = (0, 0)) := by
  unfold anchor
  cases hr : regime p HF VF with
  | suspended =>
    refine ⟨0, le_rfl, fun h _ _ => h, ?_, Or.inl rfl, ?_, ?_, Or.inl ?_⟩ <;> simp
  | dragging =>
    obtain ⟨h1, h2, h3⟩ := regime_seabed p HF VF hW (by rw [hr]; simp)
    have e : p.CB * p.W * (p.L - VF / p.W) = -(p.CB * (VF - p.W * p.L)) := by
      field_simp; ring
    have ha : 0 ≤ p.L - VF / p.W := by
      have : VF / p.W ≤ p.L := by rw [div_le_iff₀ h2]; linarith
      linarith
    rw [max_eq_left h1, abs_of_pos h2]
    refine ⟨p.L - VF / p.W, ha, ?_, ?_, Or.inr rfl, ?_, ?_, Or.inl ?_⟩
    · intro _ hv _
      have : 0 < VF / p.W := by positivity
      linarith
    · simp only; field_simp; ring
    · simp only; nlinarith
    · simp only; rw [e]; linarith
    · simp only; rw [e]; linarith
  | slack =>
    obtain ⟨h1, h2, h3⟩ := regime_seabed p HF VF hW (by rw [hr]; simp)
    obtain ⟨h5, h6⟩ := regime_slack p HF VF hH hW hr
    have e : p.CB * p.W * (p.L - VF / p.W) = -(p.CB * (VF - p.W * p.L)) := by
      field_simp; ring
    have ha : 0 ≤ p.L - VF / p.W := by
      have : VF / p.W ≤ p.L := by rw [div_le_iff₀ h2]; linarith
      linarith
    rw [max_eq_left h1, abs_of_pos h2]
    refine ⟨p.L - VF / p.W, ha, ?_, ?_, Or.inr rfl, ?_, ?_, Or.inr rfl⟩
    · intro _ hv _
      have : 0 < VF / p.W := by positivity
      linarith
    · simp only; field_simp; ring
    · simp only; linarith
    · simp only; rw [e]; linarith

/-- Over a seabed a sinking line is nowhere below its anchor. -/
theorem C39_above_seabed (p : Par) (HF VF : ℝ) (hH : 0 < HF) (hW : 0 < p.W) (hE : 0 < p.EA)
    (hC : 0 ≤ p.CB) (s : ℝ) (hs : 0 ≤ s) : 0 ≤ (node p HF VF s).2.1 := by
  have sqmono : ∀ x y : ℝ, 0 ≤ x → x ≤ y → sq x ≤ sq y := by
    intro x y hx hy
    exact Real.sqrt_le_sqrt (by nlinarith)
  have hang : ∀ M : ℝ, 0 ≤ (-1 + sq ((M + p.W * s) / HF)) * (HF / p.W)
      + s / p.EA * (M + 0.5 * (p.W * s)) + 0.5 * M * M / (p.W * p.EA) := by
    intro M
    have e : (-1 + sq ((M + p.W * s) / HF)) * (HF / p.W)
        + s / p.EA * (M + 0.5 * (p.W * s)) + 0.5 * M * M / (p.W * p.EA)
        = (sq ((M + p.W * s) / HF) - 1) * (HF / p.W) + 0.5 * (M + p.W * s) ^ 2 / (p.W * p.EA) := by
      field_simp
      ring
    rw [e]
    have h1 : 0 ≤ sq ((M + p.W * s) / HF) - 1 := by linarith [one_le_sq ((M + p.W * s) / HF)]
    positivity
  unfold node
  cases hr : regime p HF VF with
  | suspended =>
    have hM : 0 < VF - p.W * p.L := by
      unfold regime at hr
      split_ifs at hr with h1
      · rcases h1 with h1 | h1 | h1
        · linarith
        · linarith
        · exact h1
    simp only [nodeSuspended]
    have h1 := sqmono ((VF - p.W * p.L) / HF) ((VF - p.W * p.L + p.W * s) / HF) (by positivity)
      (div_le_div_of_nonneg_right (by nlinarith) hH.le)
    have h2 : 0 ≤ s / p.EA * (VF - p.W * p.L + 0.5 * (p.W * s)) := by
      apply mul_nonneg (by positivity)
      have : 0 ≤ p.W * s := by positivity
      linarith
    have h3 : 0 ≤ (sq ((VF - p.W * p.L + p.W * s) / HF) - sq ((VF - p.W * p.L) / HF)) * (HF / p.W) :=
      mul_nonneg (by linarith) (by positivity)
    linarith
  | dragging =>
    simp only [nodeDragging]
    split_ifs
    · exact le_rfl
    · exact hang _
  | slack =>
    simp only [nodeSlack]
    split_ifs
    · exact le_rfl
    · exact le_rfl
    · exact hang _

/-! ### Successful answers -/

/-- Both ends of a successful answer with the fairlead not below the anchor.  The arc lengths run
from zero to the length of the line.  The first node is the anchor; the last node is off the
fairlead (moved to the tolerance when the span is smaller) by `ex`, `ez`, which are bounded by the
tolerance times the sensitivities of the span to the tensions (`C39_jacobian`), loosened by the
damping factor of the iteration that stopped; if that factor is zero nothing is known.  A
vertical tension that is not positive is excluded for lines over a seabed. -/
theorem C39_ends_partial (p : Par) (s : List ℝ) (fuel : ℕ) (sh : Shape)
    (h : catenary p s fuel = .ok sh) (hz : 0 ≤ p.ZF) (hT2 : p.Tol < 1 / 2)
    (h0 : s.head? = some 0) (hl : s.getLast? = some p.L)
    (hV : p.CB < 0 ∨ p.W < 0 ∨ 0 < sh.VF) :
    ∃ ex ez : ℝ, ∃ I : ℕ, 1 ≤ I ∧ I ≤ 1 / p.Tol ∧
      sh.nodes.head? = some (0, 0, 0, Real.sqrt (sh.HA * sh.HA + sh.VA * sh.VA)) ∧
      sh.nodes.getLast? = some (p.L, max p.XF p.Tol + ex, max p.ZF p.Tol + ez,
        Real.sqrt (sh.HF * sh.HF + sh.VF * sh.VF)) ∧
      let R := resid (clamp p) sh.HF sh.VF
      |ex| * (1 - p.Tol * I) ≤ p.Tol * (|R.dXFdHF| * sh.HF + |R.dXFdVF| * |sh.VF|) ∧
      |ez| * (1 - p.Tol * I) ≤ p.Tol * (|R.dZFdHF| * sh.HF + |R.dZFdVF| * |sh.VF|) := by
  obtain ⟨it, l, hlo, hn, e1, e2, e3, e4, e5, hW, hE, hT, hlong⟩ := ok_iff p s fuel sh h
  have hup : upright p = p := by unfold upright; rw [if_neg (not_lt.2 hz)]
  rw [hup] at hlo hn e3 e4 e5
  rw [if_neg (not_lt.2 hz)] at e5
  have hs : 0 < (start p).HF := lt_max_of_lt_right hT
  obtain ⟨hH, hI1, hI2, hD, c1, c2⟩ := loop_converged (clamp p) hT fuel _ it (by simp [start]) hs hlo
  have hI3 : (it.I : ℝ) ≤ 1 / p.Tol := by
    have : (maxIter (clamp p) : ℝ) ≤ 1 / p.Tol := Nat.floor_le (by positivity)
    exact le_trans (by exact_mod_cast hI2) this
  have hreg : regime (clamp p) it.HF it.VF = .suspended ∨ 0 < it.VF := by
    rw [e2] at hV
    rcases hV with h1 | h1 | h1
    · left; unfold regime; exact if_pos (Or.inl h1)
    · left; unfold regime; exact if_pos (Or.inr (Or.inl h1))
    · exact Or.inr h1
  have hnode : l = s.map fun x => (x, node (clamp p) it.HF it.VF x) := by
    unfold nodes at hn
    split_ifs at hn with hc
    simpa using hn.symm
  refine ⟨(resid (clamp p) it.HF it.VF).EXF, (resid (clamp p) it.HF it.VF).EZF, it.I, hI1, hI3, ?_, ?_, ?_⟩
  · rw [e5, hnode, List.head?_map, h0, e3, e4]
    have := C39_first_node (clamp p) it.HF it.VF hH hW
    simp only [Option.map_some, this]
  · rw [e5, hnode, List.getLast?_map, hl, e1, e2]
    have := C39_last_node (clamp p) it.HF it.VF hH hW hE hreg
    have hL : (clamp p).L = p.L := rfl
    rw [hL] at this
    simp only [Option.map_some, this]
    rfl
  · simp only
    rw [e1, e2]
    by_cases hk : p.Tol * it.I < 1
    · exact converged_errors (clamp p) hT hT2 it hH hk hD c1 c2
    · have hk0 : 1 - p.Tol * it.I ≤ 0 := by linarith
      have b1 : 0 ≤ p.Tol * (|(resid (clamp p) it.HF it.VF).dXFdHF| * it.HF
          + |(resid (clamp p) it.HF it.VF).dXFdVF| * |it.VF|) := by positivity
      have b2 : 0 ≤ p.Tol * (|(resid (clamp p) it.HF it.VF).dZFdHF| * it.HF
          + |(resid (clamp p) it.HF it.VF).dZFdVF| * |it.VF|) := by positivity
      exact ⟨(mul_nonpos_of_nonneg_of_nonpos (abs_nonneg _) hk0).trans b1,
        (mul_nonpos_of_nonneg_of_nonpos (abs_nonneg _) hk0).trans b2⟩

/-- The answer for a fairlead below the anchor: the line from the fairlead to the anchor seen from
the other end.  The tensions given for the fairlead and the anchor are not exchanged: those given
for the fairlead are those of the (upper) anchor. -/
theorem C39_reversed (p : Par) (s : List ℝ) (fuel : ℕ) (hz : p.ZF < 0) (sh : Shape)
    (h : catenary p s fuel = .ok sh) :
    ∃ up, catenary { p with ZF := -p.ZF } s fuel = .ok up ∧
      sh.HF = up.HF ∧ sh.VF = up.VF ∧ sh.HA = up.HA ∧ sh.VA = up.VA ∧
      sh.nodes = up.nodes.reverse.map fun n =>
        (p.L - n.1, max p.XF p.Tol - n.2.1, n.2.2.1 - max (-p.ZF) p.Tol, n.2.2.2) := by
  obtain ⟨it, l, hlo, hn, e1, e2, e3, e4, e5, hW, hE, hT, hlong⟩ := ok_iff p s fuel sh h
  have hup : upright p = { p with ZF := -p.ZF } := by unfold upright; rw [if_pos hz]
  have hup2 : upright { p with ZF := -p.ZF } = { p with ZF := -p.ZF } := by
    unfold upright; rw [if_neg (by simp only; linarith)]
  rw [hup] at hlo hn e3 e4 e5 hlong
  rw [if_pos hz] at e5
  refine ⟨{ HF := it.HF, VF := it.VF, HA := (anchor (clamp { p with ZF := -p.ZF }) it.HF it.VF).1,
            VA := (anchor (clamp { p with ZF := -p.ZF }) it.HF it.VF).2, nodes := l },
    ?_, e1, e2, e3, e4, e5⟩
  have h1 : ¬ (p.W = 0 ∨ p.EA = 0 ∨ p.Tol ≤ 0 ∨ 2 ^ 32 ≤ 1 / p.Tol) := by
    intro hc
    unfold catenary at h
    simp only at h
    rw [if_pos hc] at h
    simp at h
  unfold catenary
  simp only
  rw [if_neg h1, hup2, if_neg hlong, hlo]
  simp only [hn]
  rw [if_neg (by linarith)]

/-- In particular the tension of the first node, the anchor, is that given for the fairlead. -/
theorem C39_reversed_tensions (p : Par) (s : List ℝ) (fuel : ℕ) (hz : p.ZF < 0) (sh : Shape)
    (h : catenary p s fuel = .ok sh) (hT2 : p.Tol < 1 / 2)
    (h0 : s.head? = some 0) (hl : s.getLast? = some p.L)
    (hV : p.CB < 0 ∨ p.W < 0 ∨ 0 < sh.VF) :
    (∃ n, sh.nodes.head? = some n ∧ n.2.2.2 = Real.sqrt (sh.HF * sh.HF + sh.VF * sh.VF)) ∧
    (∃ T, sh.nodes.getLast? = some (p.L, max p.XF p.Tol, -(max (-p.ZF) p.Tol), T) ∧
      T = Real.sqrt (sh.HA * sh.HA + sh.VA * sh.VA)) := by
  obtain ⟨up, hup, e1, e2, e3, e4, e5⟩ := C39_reversed p s fuel hz sh h
  obtain ⟨ex, ez, I, _, _, f1, f2, _⟩ := C39_ends_partial { p with ZF := -p.ZF } s fuel up hup
    (by simp only; linarith) hT2 h0 hl (by rw [← e2]; exact hV)
  constructor
  · rw [e5, List.head?_map, List.head?_reverse, f2]
    exact ⟨_, rfl, by rw [e1, e2]⟩
  · rw [e5, List.getLast?_map, List.getLast?_reverse, f1]
    refine ⟨_, ?_, by rw [e3, e4]⟩
    simp

/-- Without seabed the solver succeeds for every line and every tolerance whose inverse is a whole
number. -/
theorem C39_suspended_succeeds (p : Par) (s : List ℝ) (n : ℕ) (hn : 1 ≤ n) (hn2 : n < 2 ^ 32)
    (hT : p.Tol = 1 / n) (hC : p.CB < 0) (hW : p.W ≠ 0) (hE : 0 < p.EA) (hL : 0 < p.L)
    (hs : ∀ x ∈ s, 0 ≤ x ∧ x ≤ p.L) : ∃ sh, catenary p s (2 * n) = .ok sh := by
  obtain ⟨u1, u2, u3, u4, u5, u6, u7⟩ := upright_fields p
  have hn0 : (0 : ℝ) < n := by exact_mod_cast hn
  have hTp : 0 < p.Tol := by rw [hT]; positivity
  have hmax : maxIter (clamp (upright p)) = n := by
    unfold maxIter
    simp only [clamp, u6]
    rw [hT, one_div_one_div, Nat.floor_natCast]
  have hreg : ∀ H V, regime (clamp (upright p)) H V = .suspended := by
    intro H V
    unfold regime
    exact if_pos (Or.inl (by simp only [clamp, u5]; exact hC))
  have hgood : ∀ (fuel : ℕ) (it : It), 0 < it.HF → 1 ≤ it.I → it.I ≤ n →
      loop (clamp (upright p)) fuel it ≠ .undefined ∧ loop (clamp (upright p)) fuel it ≠ .ranOut := by
    intro fuel
    induction fuel with
    | zero =>
      intro it _ _ hI
      simp only [loop, hmax, if_pos hI]
      simp
    | succ m ih =>
      intro it hH h1 hI
      simp only [loop, hmax, if_pos hI]
      cases hp : pass (clamp (upright p)) it with
      | next it' =>
        refine ih it' (pass_pos _ (by simp only [clamp, u6]; exact hTp) it it' hp hH)
          (pass_decreases _ it it' h1 (by rw [hmax]; exact hI) hp).2 ?_
        unfold pass at hp
        split_ifs at hp with q1 q2 q3 q4
        · simp only [Pass.next.injEq] at hp
          subst hp
          exact hn
        · simp only [Pass.next.injEq] at hp
          subst hp
          rw [hmax] at q3 q4
          have : it.I ≠ n := by
            intro hc
            rcases hb : it.first with _ | _
            · exact q4 ⟨hc, hb⟩
            · exact q3 ⟨hc, hb⟩
          simp only
          omega
      | converged it' => simp
      | failed => simp
      | undefined =>
        exfalso
        unfold pass at hp
        split_ifs at hp with q1
        exact (C39_regular (clamp (upright p)) it.HF it.VF hH (by simp only [clamp, u4]; exact hW)
          (by simp only [clamp, u3]; exact hE) (by simp only [clamp, u2]; exact hL)
          (Or.inl (hreg _ _))).ne' q1
  have hlong : ¬ tooLong (upright p) := by
    rintro ⟨_, _, h⟩
    rw [u5] at h
    linarith
  have h1 := C39_nonconvergence_never_reported p s (2 * n) n hn hT hs hlong
  have h2 := C39_terminates p s (2 * n) (by rw [hT, one_div_one_div, Nat.floor_natCast])
  have h3 := hgood (2 * n) (start (upright p)) (lt_max_of_lt_right (by rw [u6]; exact hTp))
    (by simp [start]) (by simpa [start] using hn)
  have hbad : ¬ (p.W = 0 ∨ p.EA = 0 ∨ p.Tol ≤ 0 ∨ 2 ^ 32 ≤ 1 / p.Tol) := by
    rintro (h | h | h | h)
    · exact hW h
    · linarith
    · linarith
    · rw [hT, one_div_one_div] at h
      have : (n : ℝ) < 2 ^ 32 := by exact_mod_cast hn2
      linarith
  have h4 : catenary p s (2 * n) ≠ .undefined := by
    unfold catenary
    simp only
    rw [if_neg hbad, if_neg hlong]
    cases hl : loop (clamp (upright p)) (2 * n) (start (upright p)) with
    | converged it => simp only; cases nodes (clamp (upright p)) it.HF it.VF s <;> simp
    | failed => simp
    | undefined => exact absurd hl h3.1
    | ranOut => exact absurd hl h3.2
    | unfinished => simp
  cases hc : catenary p s (2 * n) with
  | fail => exact absurd hc h1
  | ok sh => exact ⟨sh, rfl⟩
  | undefined => exact absurd hc h4
  | unfinished => exact absurd hc h2

/-- A chain of 120 m and 100 N/m between two points 80 m apart and 50 m in height, off the seabed,
and the same seen from the other end. -/
noncomputable def chain (z : ℝ) : Par :=
  { XF := 80, ZF := z, L := 120, EA := 500000, W := 100, CB := -1, Tol := 1 / 100 }

example : ∃ sh, catenary (chain 50) [0, 30, 60, 120] 200 = .ok sh ∧ 0 < sh.HF ∧
    ∃ n, sh.nodes.head? = some n ∧ n.2.1 = 0 ∧ n.2.2.1 = 0 := by
  obtain ⟨sh, hsh⟩ := C39_suspended_succeeds (chain 50) [0, 30, 60, 120] 100 (by norm_num)
    (by norm_num) (by simp [chain]) (by simp [chain]) (by simp [chain]) (by simp [chain])
    (by simp [chain]) (by simp [chain]; norm_num)
  obtain ⟨ex, ez, I, _, _, h1, _⟩ := C39_ends_partial (chain 50) _ 200 sh hsh (by norm_num [chain])
    (by norm_num [chain]) rfl rfl (Or.inl (by norm_num [chain]))
  exact ⟨sh, hsh, (C39_positive_tension _ _ _ sh hsh).1, _, h1, rfl, rfl⟩

example : ∃ sh, catenary (chain (-50)) [0, 30, 60, 120] 200 = .ok sh ∧
    ∃ n, sh.nodes.getLast? = some n ∧ n.2.1 = 80 ∧ n.2.2.1 = -50 := by
  obtain ⟨sh, hsh⟩ := C39_suspended_succeeds (chain (-50)) [0, 30, 60, 120] 100 (by norm_num)
    (by norm_num) (by simp [chain]) (by simp [chain]) (by simp [chain]) (by simp [chain])
    (by simp [chain]) (by simp [chain]; norm_num)
  obtain ⟨_, T, h1, _⟩ := C39_reversed_tensions (chain (-50)) _ 200 (by norm_num [chain]) sh hsh
    (by norm_num [chain]) rfl rfl (Or.inl (by norm_num [chain]))
  refine ⟨sh, hsh, _, h1, ?_, ?_⟩ <;> norm_num [chain]

/-- The three configurations occur: a chain on a rough seabed, pulled more and more. -/
noncomputable def seabedChain : Par :=
  { XF := 80, ZF := 10, L := 100, EA := 500000, W := 100, CB := 1, Tol := 1 / 100 }

example : regime seabedChain 1000 4000 = .slack ∧ regime seabedChain 7000 4000 = .dragging ∧
    regime seabedChain 7000 11000 = .suspended := by
  refine ⟨?_, ?_, ?_⟩ <;> unfold regime seabedChain <;> norm_num

/-! ### The initial shape of a line -/

/-- Every node of the initial shape lies in the vertical plane through the ends of the line. -/
theorem C39_line_in_plane (r0 rN : Fin 3 → ℝ) (N : ℕ) (L EA W CB : ℝ) (i : ℕ) (r : Fin 3 → ℝ)
    (h : lineNode r0 rN N L EA W CB i = some r) :
    (r 0 - r0 0) * (rN 1 - r0 1) = (r 1 - r0 1) * (rN 0 - r0 0) := by
  have hlin : (r0 0 + (rN 0 - r0 0) * ((i : ℝ) / N) - r0 0) * (rN 1 - r0 1)
      = (r0 1 + (rN 1 - r0 1) * ((i : ℝ) / N) - r0 1) * (rN 0 - r0 0) := by ring
  unfold lineNode at h
  simp only at h
  by_cases h1 : i = 0
  · rw [if_pos h1] at h
    simp only [Option.some.injEq] at h
    subst h
    ring
  rw [if_neg h1] at h
  by_cases h2 : N ≤ i
  · rw [if_pos h2] at h
    simp only [Option.some.injEq] at h
    subst h
    ring
  rw [if_neg h2] at h
  by_cases h3 : 0 < Real.sqrt ((rN 0 - r0 0) * (rN 0 - r0 0) + (rN 1 - r0 1) * (rN 1 - r0 1))
  · rw [if_pos h3] at h
    cases hc : catenary (linePar r0 rN L EA W CB) (snodes N L) (2 * 100000) with
    | ok sh =>
      simp only [hc] at h
      cases hn : sh.nodes[i]? with
      | none => simp [hn] at h
      | some n =>
        simp only [hn, Option.map_some, Option.some.injEq] at h
        subst h
        simp
        ring
    | fail =>
      simp only [hc, Option.some.injEq] at h
      subst h
      simpa using hlin
    | undefined => simp [hc] at h
    | unfinished => simp [hc] at h
  · rw [if_neg h3] at h
    simp only [Option.some.injEq] at h
    subst h
    simpa using hlin

/-- The initial shape has a node for every index: the solver is asked for all of them. -/
theorem snodes_length (N : ℕ) (L : ℝ) : (snodes N L).length = N + 1 := by simp [snodes]

theorem ok_length (p : Par) (s : List ℝ) (fuel : ℕ) (sh : Shape) (h : catenary p s fuel = .ok sh) :
    sh.nodes.length = s.length := by
  obtain ⟨it, l, hlo, hn, e1, e2, e3, e4, e5, hW, hE, hT, hlong⟩ := ok_iff p s fuel sh h
  have hl : l.length = s.length := by
    unfold nodes at hn
    split_ifs at hn
    simp only [Option.some.injEq] at hn
    rw [← hn, List.length_map]
  rw [e5]
  split_ifs
  · simp [unreverse, hl]
  · exact hl

/-- Unless the arithmetic fails (see `C39_regular`), every node has a position, and the end nodes
are the ends of the line. -/
theorem C39_line_complete (r0 rN : Fin 3 → ℝ) (N : ℕ) (hN : 1 ≤ N) (L EA W CB : ℝ)
    (hu : catenary (linePar r0 rN L EA W CB) (snodes N L) (2 * 100000) ≠ .undefined) :
    lineNode r0 rN N L EA W CB 0 = some r0 ∧ lineNode r0 rN N L EA W CB N = some rN ∧
    ∀ i, ∃ r, lineNode r0 rN N L EA W CB i = some r := by
  refine ⟨by unfold lineNode; rw [if_pos rfl], ?_, ?_⟩
  · unfold lineNode
    rw [if_neg (by omega), if_pos le_rfl]
  · intro i
    unfold lineNode
    simp only
    by_cases h1 : i = 0
    · exact ⟨_, by rw [if_pos h1]⟩
    rw [if_neg h1]
    by_cases h2 : N ≤ i
    · exact ⟨_, by rw [if_pos h2]⟩
    rw [if_neg h2]
    by_cases h3 : 0 < Real.sqrt ((rN 0 - r0 0) * (rN 0 - r0 0) + (rN 1 - r0 1) * (rN 1 - r0 1))
    · rw [if_pos h3]
      have ht := C39_terminates (linePar r0 rN L EA W CB) (snodes N L) (2 * 100000) (by
        simp only [linePar]; norm_num)
      cases hc : catenary (linePar r0 rN L EA W CB) (snodes N L) (2 * 100000) with
      | ok sh =>
        have hl := ok_length _ _ _ sh hc
        rw [snodes_length] at hl
        have : i < sh.nodes.length := by omega
        simp only [List.getElem?_eq_getElem this, Option.map_some]
        exact ⟨_, rfl⟩
      | fail => exact ⟨_, rfl⟩
      | undefined => exact absurd hc hu
      | unfinished => exact absurd hc ht
    · exact ⟨_, by rw [if_neg h3]⟩

/-- A sinking line over a flat seabed with its anchor on it starts nowhere below it. -/
theorem C39_line_above_seabed (r0 rN : Fin 3 → ℝ) (N : ℕ) (L EA W CB : ℝ) (hE : 0 < EA)
    (hW : 0 < W) (hC : 0 ≤ CB) (hL : 0 ≤ L) (hz : r0 2 ≤ rN 2) (i : ℕ) (r : Fin 3 → ℝ)
    (h : lineNode r0 rN N L EA W CB i = some r) : r0 2 ≤ r 2 := by
  have hlin : i < N → r0 2 ≤ r0 2 + (rN 2 - r0 2) * ((i : ℝ) / N) := by
    intro hi
    have : 0 ≤ (rN 2 - r0 2) * ((i : ℝ) / N) := mul_nonneg (by linarith) (by positivity)
    linarith
  unfold lineNode at h
  simp only at h
  by_cases h1 : i = 0
  · rw [if_pos h1] at h
    simp only [Option.some.injEq] at h
    subst h
    exact le_rfl
  rw [if_neg h1] at h
  by_cases h2 : N ≤ i
  · rw [if_pos h2] at h
    simp only [Option.some.injEq] at h
    subst h
    exact hz
  rw [if_neg h2] at h
  by_cases h3 : 0 < Real.sqrt ((rN 0 - r0 0) * (rN 0 - r0 0) + (rN 1 - r0 1) * (rN 1 - r0 1))
  · rw [if_pos h3] at h
    cases hc : catenary (linePar r0 rN L EA W CB) (snodes N L) (2 * 100000) with
    | ok sh =>
      simp only [hc] at h
      obtain ⟨it, l, hlo, hn, e1, e2, e3, e4, e5, hW', hE', hT, hlong⟩ := ok_iff _ _ _ sh hc
      have hzf : ¬ (linePar r0 rN L EA W CB).ZF < 0 := by simp only [linePar]; linarith
      have hup : upright (linePar r0 rN L EA W CB) = linePar r0 rN L EA W CB := by
        unfold upright; rw [if_neg hzf]
      rw [if_neg hzf] at e5
      rw [hup] at hlo hn
      obtain ⟨hH, _⟩ := loop_converged (clamp (linePar r0 rN L EA W CB)) hT _ _ it
        (by simp [start]) (lt_max_of_lt_right hT) hlo
      have hl : l = (snodes N L).map fun x => (x, node (clamp (linePar r0 rN L EA W CB)) it.HF it.VF x) := by
        unfold nodes at hn
        split_ifs at hn
        simpa using hn.symm
      rw [e5, hl, List.getElem?_map] at h
      cases hx : (snodes N L)[i]? with
      | none => simp [hx] at h
      | some x =>
        simp only [hx, Option.map_some, Option.some.injEq] at h
        subst h
        have hx0 : 0 ≤ x := by
          obtain ⟨j, hj⟩ := List.getElem?_eq_some_iff.1 hx
          simp only [snodes, List.getElem_map, List.getElem_range] at hj
          rw [← hj]
          exact mul_nonneg hL (div_nonneg (Nat.cast_nonneg _) (Nat.cast_nonneg _))
        have := C39_above_seabed (clamp (linePar r0 rN L EA W CB)) it.HF it.VF hH hW hE hC x hx0
        simp
        linarith
    | fail =>
      simp only [hc, Option.some.injEq] at h
      subst h
      simpa using hlin (by omega)
    | undefined => simp [hc] at h
    | unfinished => simp [hc] at h
  · rw [if_neg h3] at h
    simp only [Option.some.injEq] at h
    subst h
    simpa using hlin (by omega)

/-! ### Success without solution -/

/-- A line of unit length, stiffness and weight over a span of 10 by 10, no seabed, solved to a
tolerance of one. -/
def spring : Par := { XF := 10, ZF := 10, L := 1, EA := 1, W := 1, CB := -1, Tol := 1 }

theorem spring_start : start spring = { I := 1, first := true, HF := 25, VF := (guess spring).2 } := by
  have h : (guess spring).1 = 25 := by
    unfold guess
    have : spring.L ≤ Real.sqrt (spring.XF * spring.XF + spring.ZF * spring.ZF) := by
      apply Real.le_sqrt_of_sq_le
      simp only [spring]
      norm_num
    rw [if_pos this]
    simp only [spring]
    norm_num [abs_of_pos]
  unfold start
  rw [h]
  simp only [spring]
  norm_num

/-- A successful answer whose last node is more than twice as far as the fairlead: the solver
takes its initial guess as the solution. -/
theorem C39_ends_false : ∃ (p : Par) (s : List ℝ) (sh : Shape) (n : ℝ × ℝ × ℝ × ℝ),
    catenary p s 1 = .ok sh ∧ s.getLast? = some p.L ∧ sh.nodes.getLast? = some n ∧
    2 * p.XF + p.Tol < n.2.1 := by
  have hup : upright spring = spring := by
    unfold upright; rw [if_neg]; simp only [spring]; norm_num
  have hcl : clamp spring = spring := by
    unfold clamp
    simp only [spring]
    norm_num
  have hreg : regime spring 25 (guess spring).2 = .suspended := by
    unfold regime; rw [if_pos]; left; simp only [spring]; norm_num
  have hD := C39_regular spring 25 (guess spring).2 (by norm_num) (by simp [spring])
    (by simp [spring]) (by simp [spring]) (Or.inl hreg)
  have hmax : maxIter spring = 1 := by
    unfold maxIter
    simp [spring]
  have hpass : pass spring (start spring) = .converged (start spring) := by
    have hz : 1 - spring.Tol * ((start spring).I : ℝ) = 0 := by simp [spring, start]
    have ha : dHF spring (start spring) = 0 := by
      unfold dHF
      simp only
      rw [hz, mul_zero]
      simp [spring]
    have hb : dVF spring (start spring) = 0 := by
      unfold dVF
      simp only
      rw [hz, mul_zero]
    unfold pass
    rw [if_neg (by rw [spring_start]; exact hD.ne'), if_pos]
    rw [ha, hb, abs_zero]
    exact ⟨abs_nonneg _, abs_nonneg _⟩
  have hloop : loop spring 1 (start spring) = .converged (start spring) := by
    unfold loop
    rw [if_pos (by rw [hmax]; simp [start]), hpass]
  refine ⟨spring, [0, 1],
    { HF := (start spring).HF, VF := (start spring).VF,
      HA := (anchor spring (start spring).HF (start spring).VF).1,
      VA := (anchor spring (start spring).HF (start spring).VF).2,
      nodes := [0, 1].map fun x => (x, node spring (start spring).HF (start spring).VF x) },
    (1, node spring 25 (guess spring).2 1), ?_, rfl, ?_, ?_⟩
  · unfold catenary
    simp only
    rw [if_neg (by simp [spring]; norm_num), hup, if_neg (by unfold tooLong; simp [spring]), hcl,
      hloop]
    simp only [nodes]
    rw [if_neg (by simp [spring])]
    have hz : ¬ spring.ZF < 0 := by simp only [spring]; norm_num
    simp only [if_neg hz]
  · simp only [List.map, List.getLast?]
    rw [spring_start]
    rfl
  · unfold node
    rw [hreg]
    simp only [nodeSuspended]
    set V := (guess spring).2
    have h1 : lg ((V - spring.W * spring.L) / 25) < lg ((V - spring.W * spring.L + spring.W * 1) / 25) := by
      apply lg_strictMono
      simp only [spring]
      linarith
    have h2 : 0 < (lg ((V - spring.W * spring.L + spring.W * 1) / 25)
        - lg ((V - spring.W * spring.L) / 25)) * (25 / spring.W) := by
      apply mul_pos (by linarith)
      simp [spring]
    have h3 : 2 * spring.XF + spring.Tol < 1 / spring.EA * 25 := by
      simp only [spring]
      norm_num
    linarith

/-! ## C39: the lines which are refused as too long -/

/-- C39: on a seabed, a line that sinks is refused as too long exactly if it can lie from the anchor
to below the fairlead and rise from there vertically: `h` is the unstretched length which, hanging
under its own weight, reaches over the height `ZF`. -/
theorem C39_too_long (p : Par) (hW : 0 < p.W) (hE : 0 < p.EA) (hB : 0 ≤ p.CB) (h : ℝ) (hh : 0 ≤ h)
    (hz : h + p.W * h ^ 2 / (2 * p.EA) = p.ZF) : tooLong p ↔ p.XF + h ≤ p.L := by
  have h1 : (p.EA / p.W) * (p.EA / p.W) + 2 * p.ZF * p.EA / p.W = (h + p.EA / p.W) ^ 2 := by
    rw [← hz]
    field_simp
    ring
  have h2 : LMax p = p.XF + h := by
    unfold LMax
    rw [h1, Real.sqrt_sq (by positivity)]
    ring
  unfold tooLong
  rw [h2]
  simp [hW, hB]

/-- C39: and then the solver reports a failure. -/
theorem C39_too_long_fails (p : Par) (s : List ℝ) (fuel : ℕ) (hW : 0 < p.W) (hE : 0 < p.EA)
    (hB : 0 ≤ p.CB) (hT : 0 < p.Tol) (hT2 : 1 / p.Tol < 2 ^ 32) (h : ℝ) (hh : 0 ≤ h)
    (hz : h + p.W * h ^ 2 / (2 * p.EA) = p.ZF) (hL : p.XF + h ≤ p.L) :
    catenary p s fuel = .fail := by
  have hu : upright p = p := by
    unfold upright
    have : ¬ p.ZF < 0 := by
      have : 0 ≤ p.W * h ^ 2 / (2 * p.EA) := by positivity
      linarith
    rw [if_neg this]
  unfold catenary
  simp only
  rw [if_neg (by
    push Not
    exact ⟨hW.ne', hE.ne', hT, hT2⟩), hu,
    if_pos ((C39_too_long p hW hE hB h hh hz).2 hL)]

/-- C39: the first guess for a slack line is that of the shallow inextensible catenary of the same
length: with `l` the ratio of half the weight over the span to the horizontal tension,
`(1 + l² / 3) XF² = L² - ZF²`, and the vertical tension is `W (ZF / tanh l + L) / 2`. -/
theorem C39_guess (p : Par) (hW : 0 < p.W) (hX : 0 < p.XF)
    (hL : Real.sqrt (p.XF * p.XF + p.ZF * p.ZF) < p.L) :
    ∃ l : ℝ, 0 < l ∧ (1 + l ^ 2 / 3) * p.XF ^ 2 = p.L ^ 2 - p.ZF ^ 2 ∧
      2 * l * (guess p).1 = p.W * p.XF ∧
      2 * (guess p).2 = p.W * (p.ZF / Real.tanh l + p.L) := by
  have h0 : 0 ≤ Real.sqrt (p.XF * p.XF + p.ZF * p.ZF) := Real.sqrt_nonneg _
  have h1 : p.XF * p.XF + p.ZF * p.ZF < p.L * p.L := by
    have := Real.sq_sqrt (add_nonneg (mul_self_nonneg p.XF) (mul_self_nonneg p.ZF))
    nlinarith
  have h2 : 0 < 3 * ((p.L * p.L - p.ZF * p.ZF) / (p.XF * p.XF) - 1) := by
    have : 1 < (p.L * p.L - p.ZF * p.ZF) / (p.XF * p.XF) := by
      rw [one_lt_div (by positivity)]
      linarith
    linarith
  refine ⟨Real.sqrt (3 * ((p.L * p.L - p.ZF * p.ZF) / (p.XF * p.XF) - 1)), Real.sqrt_pos.2 h2,
    ?_, ?_, ?_⟩
  · rw [Real.sq_sqrt h2.le]
    field_simp
    ring
  all_goals
    unfold guess
    rw [if_neg (not_le.2 hL), if_neg hX.ne']
    simp only
    have h3 := Real.sqrt_pos.2 h2
    generalize Real.sqrt (3 * ((p.L * p.L - p.ZF * p.ZF) / (p.XF * p.XF) - 1)) = l at *
  · rw [abs_of_pos (by positivity)]
    field_simp
    norm_num
  · ring

/-- A chain of 100 N/m and 1 MN between points 80 m apart and 30.045 m high, 120 m long -/
example : tooLong ⟨80, 30 + 100 * 30 ^ 2 / (2 * 1000000), 120, 1000000, 100, 0, 1 / 100000⟩ :=
  (C39_too_long _ (by norm_num) (by norm_num) (by norm_num) 30 (by norm_num) rfl).2 (by norm_num)

end MD.Catenary
