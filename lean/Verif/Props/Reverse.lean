import Verif.Props.LineLoads
import Verif.Props.LineTension
import Verif.Props.Frame

/-!
# C100: it does not matter which end of a line is called A
-/

set_option linter.unusedSimpArgs false
set_option linter.unusedSectionVars false

namespace MD.Reverse

open Matrix Finset MD.Mat MD.Mooring

/-! ## Specification -/

/-- The same line, its nodes and segments counted from the other end. -/
structure Reversed (L L' : Line) : Prop where
  N : L'.N = L.N
  pos : 1 ≤ L.N
  d : L'.d = L.d
  A : L'.A = L.A
  rho : L'.rho = L.rho
  E : L'.E = L.E
  c : L'.c = L.c
  EI : L'.EI = L.EI
  Can : L'.Can = L.Can
  Cat : L'.Cat = L.Cat
  Cdn : L'.Cdn = L.Cdn
  Cdt : L'.Cdt = L.Cdt
  stiff : L'.stiff = L.stiff
  bstiff : L'.bstiff = L.bstiff
  damp : L'.damp = L.damp
  dampNeg : L'.dampNeg = L.dampNeg
  l : ∀ i, i < L.N → L'.l i = L.l (L.N - 1 - i)
  V : ∀ i, i < L.N → L'.V i = L.V (L.N - 1 - i)
  r : ∀ i, i ≤ L.N → L'.r i = L.r (L.N - i)
  rd : ∀ i, i ≤ L.N → L'.rd i = L.rd (L.N - i)
  endTypeA : L'.endTypeA = L.endTypeB
  endTypeB : L'.endTypeB = L.endTypeA
  qA : L'.qA = -L.qB
  qB : L'.qB = -L.qA
  pin : ∀ i, i ≤ L.N → L'.pin i = L.pin (L.N - i)
  isPb : L'.isPb = L.isPb

/-- The same water at the same places. -/
structure SameSea (N : ℕ) (e e' : Env) : Prop where
  rho_w : e'.rho_w = e.rho_w
  g : e'.g = e.g
  kb : e'.kb = e.kb
  cb : e'.cb = e.cb
  frictionCoefficient : e'.frictionCoefficient = e.frictionCoefficient
  fricDamp : e'.fricDamp = e.fricDamp
  statDynFricScale : e'.statDynFricScale = e.statDynFricScale
  waterDepth : e'.waterDepth = e.waterDepth
  zeta : ∀ i, i ≤ N → e'.zeta i = e.zeta (N - i)
  U : ∀ i, i ≤ N → e'.U i = e.U (N - i)
  Ud : ∀ i, i ≤ N → e'.Ud i = e.Ud (N - i)
  pdyn : ∀ i, i ≤ N → e'.pdyn i = e.pdyn (N - i)

/-- No end of a segment is exactly as high as the water over the segment. -/
def OffSurface (L : Line) (e : Env) : Prop := 0 ≤ L.d ∧ ∀ j, j < L.N →
  L.r j 2 ≠ 1 / 2 * (e.zeta j + e.zeta (j + 1)) ∧ L.r (j + 1) 2 ≠ 1 / 2 * (e.zeta j + e.zeta (j + 1))

/-- The other end. -/
def other : EndPt → EndPt
  | .TOP => .BOTTOM
  | .BOTTOM => .TOP

/-! ## Vectors -/

theorem norm_neg' (a : V) : Mooring.norm (-a) = Mooring.norm a := by
  unfold Mooring.norm
  rw [neg_dotProduct_neg]

theorem unit_swap (a b : V) : unitvector b a = (-(unitvector a b).1, (unitvector a b).2) := by
  have e : a - b = -(b - a) := by abel
  unfold unitvector
  dsimp only
  rw [e, norm_neg']
  by_cases h : EqualRealNos (Mooring.norm (b - a)) 0
  · rw [if_pos h, if_pos h]
  · rw [if_neg h, if_neg h, smul_neg]

theorem curvature_swap (c : ℝ) (a b : V) : getCurvature c (-b) (-a) = getCurvature c a b := by
  unfold getCurvature
  rw [neg_dotProduct_neg, dotProduct_comm b a]

theorem cross_swap (a b : V) : (-b) ⨯₃ (-a) = -(a ⨯₃ b) := by
  rw [map_neg, map_neg, LinearMap.neg_apply, neg_neg, cross_anticomm]

theorem cross_neg_neg (a b : V) : (-a) ⨯₃ (-b) = a ⨯₃ b := by
  rw [map_neg, map_neg, LinearMap.neg_apply, neg_neg]

/-! ## Lines -/

section
variable {L L' : Line} (h : Reversed L L')
include h

theorem seg_r {j : ℕ} (hj : j < L.N) : L'.r j = L.r (L.N - 1 - j + 1) ∧ L'.r (j + 1) = L.r (L.N - 1 - j) := by
  rw [h.r j (by omega), h.r (j + 1) (by omega)]
  constructor <;> congr 1 <;> omega

theorem seg_rd {j : ℕ} (hj : j < L.N) : L'.rd j = L.rd (L.N - 1 - j + 1) ∧ L'.rd (j + 1) = L.rd (L.N - 1 - j) := by
  rw [h.rd j (by omega), h.rd (j + 1) (by omega)]
  constructor <;> congr 1 <;> omega

theorem rev_qs {j : ℕ} (hj : j < L.N) : qs L' j = -qs L (L.N - 1 - j) := by
  unfold qs
  rw [(seg_r h hj).1, (seg_r h hj).2, unit_swap]

theorem rev_lstr {j : ℕ} (hj : j < L.N) : lstr L' j = lstr L (L.N - 1 - j) := by
  unfold lstr
  rw [(seg_r h hj).1, (seg_r h hj).2, unit_swap]

theorem rev_ldstr {j : ℕ} (hj : j < L.N) : ldstr L' j = ldstr L (L.N - 1 - j) := by
  unfold ldstr
  rw [rev_qs h hj, (seg_rd h hj).1, (seg_rd h hj).2, neg_dotProduct, ← dotProduct_neg, neg_sub]

theorem rev_isEI : isEI L' = isEI L := by
  unfold isEI
  rw [h.EI, h.bstiff]

open Classical in
omit h in
theorem q_eq (L : Line) (i : ℕ) : q L i = if i = 0 then
    if L.endTypeA = .PINNED ∨ ¬ isEI L then (unitvector (L.r 0) (L.r 1)).1 else L.qA
  else if i = L.N then
    if L.endTypeB = .PINNED ∨ ¬ isEI L then (unitvector (L.r (L.N - 1)) (L.r L.N)).1 else L.qB
  else (unitvector (L.r (i - 1)) (L.r (i + 1))).1 := rfl

theorem rev_q {i : ℕ} (hi : i ≤ L.N) : q L' i = -q L (L.N - i) := by
  have hp := h.pos
  rw [q_eq, q_eq, h.N, rev_isEI h, h.endTypeA, h.endTypeB]
  by_cases h0 : i = 0
  · subst h0
    rw [if_pos rfl, if_neg (show ¬ L.N - 0 = 0 by omega), if_pos (show L.N - 0 = L.N by omega), h.qA, h.r 0 (by omega), h.r 1 (by omega), Nat.sub_zero]
    split_ifs
    · rw [unit_swap]
    · rfl
  rw [if_neg h0]
  by_cases h1 : i = L.N
  · rw [if_pos h1, if_pos (show L.N - i = 0 by omega), h.qB, h.r (L.N - 1) (by omega), h.r L.N le_rfl, Nat.sub_self,
      show L.N - (L.N - 1) = 1 by omega]
    split_ifs
    · rw [unit_swap]
    · rfl
  · rw [if_neg h1, if_neg (show ¬ L.N - i = 0 by omega), if_neg (show ¬ L.N - i = L.N by omega), h.r (i - 1) (by omega), h.r (i + 1) (by omega),
      show L.N - (i - 1) = L.N - i + 1 by omega, show L.N - (i + 1) = L.N - i - 1 by omega, unit_swap]

open Classical in
omit h in
theorem Kurv_eq (L : Line) (i : ℕ) : Kurv L i = if isEI L ∨ L.isPb then
    if i = 0 then
      if L.endTypeA = .CANTILEVERED then getCurvature (lstr L 0) (q L 0) (qs L 0) else 0
    else if i = L.N then
      if L.endTypeB = .CANTILEVERED then getCurvature (lstr L (i - 1)) (qs L (i - 1)) (q L i) else 0
    else getCurvature (lstr L (i - 1) + lstr L i) (qs L (i - 1)) (qs L i)
  else 0 := rfl

theorem rev_Kurv {i : ℕ} (hi : i ≤ L.N) : Kurv L' i = Kurv L (L.N - i) := by
  have hp := h.pos
  rw [Kurv_eq, Kurv_eq, h.N, rev_isEI h, h.endTypeA, h.endTypeB, h.isPb]
  by_cases hb : isEI L ∨ L.isPb = true
  swap
  · rw [if_neg hb, if_neg hb]
  rw [if_pos hb, if_pos hb]
  by_cases h0 : i = 0
  · subst h0
    rw [if_pos rfl, if_neg (show ¬ L.N - 0 = 0 by omega), if_pos (show L.N - 0 = L.N by omega), rev_lstr h (by omega), rev_q h (by omega),
      rev_qs h (by omega)]
    simp only [Nat.sub_zero, curvature_swap]
  rw [if_neg h0]
  by_cases h1 : i = L.N
  · rw [if_pos h1, if_pos (show L.N - i = 0 by omega), rev_lstr h (by omega), rev_q h (by omega), rev_qs h (by omega), curvature_swap,
      show L.N - 1 - (i - 1) = 0 by omega, show L.N - i = 0 by omega]
  · rw [if_neg h1, if_neg (show ¬ L.N - i = 0 by omega), if_neg (show ¬ L.N - i = L.N by omega), rev_lstr h (by omega), rev_lstr h (by omega),
      rev_qs h (by omega), rev_qs h (by omega), curvature_swap, show L.N - 1 - (i - 1) = L.N - i by omega,
      show L.N - 1 - i = L.N - i - 1 by omega, add_comm]

theorem rev_pvec {i : ℕ} (hi : i ≤ L.N) : pvec L' i = -pvec L (L.N - i) := by
  have hp := h.pos
  have e : (if i = 0 then q L' 0 ⨯₃ qs L' 0 else if i = L'.N then qs L' (i - 1) ⨯₃ q L' L'.N
      else qs L' (i - 1) ⨯₃ qs L' i) =
      -(if L.N - i = 0 then q L 0 ⨯₃ qs L 0 else if L.N - i = L.N then qs L (L.N - i - 1) ⨯₃ q L L.N
      else qs L (L.N - i - 1) ⨯₃ qs L (L.N - i)) := by
    rw [h.N]
    by_cases h0 : i = 0
    · subst h0
      rw [if_pos rfl, if_neg (show ¬ L.N - 0 = 0 by omega), if_pos (show L.N - 0 = L.N by omega), rev_q h (by omega), rev_qs h (by omega), cross_swap]
      simp only [Nat.sub_zero]
    rw [if_neg h0]
    by_cases h1 : i = L.N
    · rw [if_pos h1, if_pos (show L.N - i = 0 by omega), rev_q h le_rfl, rev_qs h (by omega), cross_swap,
        show L.N - 1 - (i - 1) = 0 by omega, Nat.sub_self]
    · rw [if_neg h1, if_neg (show ¬ L.N - i = 0 by omega), if_neg (show ¬ L.N - i = L.N by omega), rev_qs h (by omega), rev_qs h (by omega), cross_swap,
        show L.N - 1 - (i - 1) = L.N - i by omega, show L.N - 1 - i = L.N - i - 1 by omega]
  rw [Frame.pvec_eq, Frame.pvec_eq]
  dsimp only
  rw [e]
  generalize (if L.N - i = 0 then q L 0 ⨯₃ qs L 0 else if L.N - i = L.N then qs L (L.N - i - 1) ⨯₃ q L L.N
      else qs L (L.N - i - 1) ⨯₃ qs L (L.N - i)) = p
  rw [rev_Kurv h hi, norm_neg']
  by_cases h0 : EqualRealNos (Kurv L (L.N - i)) 0
  · rw [if_pos h0, if_pos h0, neg_zero]
  rw [if_neg h0, if_neg h0]
  by_cases h1 : EqualRealNos (Mooring.norm p) 0
  · rw [if_pos h1, if_pos h1]
  · rw [if_neg h1, if_neg h1, smul_neg]

theorem rev_adjacent (f f' : ℕ → ℝ) (hf : ∀ j, j < L.N → f' j = f (L.N - 1 - j)) {i : ℕ} (hi : i ≤ L.N) :
    adjacent L'.N f' i = adjacent L.N f (L.N - i) := by
  have hp := h.pos
  unfold adjacent
  rw [h.N]
  by_cases h0 : i = 0
  · subst h0
    rw [if_pos rfl, if_neg (show ¬ L.N - 0 = 0 by omega), if_pos (show L.N - 0 = L.N by omega), hf _ (by omega)]
    simp only [Nat.sub_zero]
  rw [if_neg h0]
  by_cases h1 : i = L.N
  · rw [if_pos h1, if_pos (show L.N - i = 0 by omega), hf _ (by omega)]
    congr 1
    omega
  · rw [if_neg h1, if_neg (show ¬ L.N - i = 0 by omega), if_neg (show ¬ L.N - i = L.N by omega), hf _ (by omega), hf _ (by omega), add_comm]
    congr 2 <;> omega

theorem rev_T {j : ℕ} (hj : j < L.N) : T L' j = -T L (L.N - 1 - j) := by
  have e : getNonlinearE L' = getNonlinearE L := by
    funext a b
    unfold getNonlinearE
    rw [h.stiff, h.E]
  unfold T
  rw [rev_lstr h hj, rev_qs h hj, e, h.l j hj, h.A]
  dsimp only
  split_ifs <;> simp

theorem rev_Td {j : ℕ} (hj : j < L.N) : Td L' j = (Td L (L.N - 1 - j)).map (- ·) := by
  have e : getNonlinearC L' = getNonlinearC L := by
    funext a b
    unfold getNonlinearC
    rw [h.damp, h.c, h.dampNeg]
  unfold Td
  rw [rev_ldstr h hj, rev_qs h hj, e, h.l j hj, h.A]
  cases getNonlinearC L (ldstr L (L.N - 1 - j)) (L.l (L.N - 1 - j)) <;> simp

theorem rev_axial {i : ℕ} (hi : i ≤ L.N) : Mooring.axial L' i = Mooring.axial L (L.N - i) := by
  have hp := h.pos
  unfold Mooring.axial
  rw [h.N]
  by_cases h0 : i = 0
  · subst h0
    rw [if_pos rfl, if_neg (show ¬ L.N - 0 = 0 by omega), if_pos (show L.N - 0 = L.N by omega), rev_T h (by omega), rev_Td h (by omega)]
    simp only [Nat.sub_zero]
    cases Td L (L.N - 1) <;> simp [sub_eq_add_neg]
  rw [if_neg h0]
  by_cases h1 : i = L.N
  · rw [if_pos h1, if_pos (show L.N - i = 0 by omega), rev_T h (by omega), rev_Td h (by omega), show L.N - 1 - (i - 1) = L.N - i by omega]
    cases Td L (L.N - i) <;> simp
  · rw [if_neg h1, if_neg (show ¬ L.N - i = 0 by omega), if_neg (show ¬ L.N - i = L.N by omega), rev_T h (by omega), rev_T h (by omega), rev_Td h (by omega),
      rev_Td h (by omega), show L.N - 1 - (i - 1) = L.N - i by omega, show L.N - 1 - i = L.N - i - 1 by omega]
    cases Td L (L.N - i) <;> cases Td L (L.N - i - 1) <;> simp
    abel

theorem rev_bend {E : Type*} [AddCommGroup E] [Module ℝ E] (φ : ℕ → V →ₗ[ℝ] E) {i : ℕ} (hi : i ≤ L.N) :
    bendTerm L' φ i = bendTerm L (fun k => φ (L.N - k)) (L.N - i) := by
  have hp := h.pos
  have e : getNonlinearEI L' = getNonlinearEI L := by
    funext a
    unfold getNonlinearEI
    rw [h.bstiff, h.EI]
  unfold bendTerm
  dsimp only
  rw [h.N, h.endTypeA, h.endTypeB, e, rev_Kurv h hi]
  by_cases h0 : i = 0
  · subst h0
    rw [if_pos rfl, if_neg (show ¬ L.N - 0 = 0 by omega), if_pos (show L.N - 0 = L.N by omega), rev_lstr h (by omega), rev_qs h (by omega),
      rev_pvec h (by omega), cross_neg_neg]
    simp only [Nat.sub_zero, Nat.sub_self, show L.N - (L.N - 1) = 1 by omega]
  rw [if_neg h0]
  by_cases h1 : i = L.N
  · rw [if_pos h1, if_pos (show L.N - i = 0 by omega), rev_lstr h (by omega), rev_qs h (by omega), rev_pvec h (by omega), cross_neg_neg]
    simp only [show L.N - 1 - (i - 1) = 0 by omega, show L.N - i = 0 by omega, Nat.sub_zero]
    rw [h1]
  · rw [if_neg h1, if_neg (show ¬ L.N - i = 0 by omega), if_neg (show ¬ L.N - i = L.N by omega), rev_lstr h (by omega), rev_lstr h (by omega),
      rev_qs h (by omega), rev_qs h (by omega), rev_pvec h (by omega), cross_neg_neg, cross_neg_neg, add_comm]
    simp only [show L.N - 1 - (i - 1) = L.N - i by omega, show L.N - 1 - i = L.N - i - 1 by omega,
      show L.N - (L.N - i - 1) = i + 1 by omega, show L.N - (L.N - i) = i by omega,
      show L.N - (L.N - i + 1) = i - 1 by omega]

omit h in
/-- The bending force on a node as a sum -/
theorem Bs_at (L : Line) (hN : 1 ≤ L.N) (hEI : isEI L) {j : ℕ} (hj : j ≤ L.N) :
    Bs L j = ∑ i ∈ range (L.N + 1), bendTerm L (fun k => if k = j then LinearMap.id else (0 : V →ₗ[ℝ] V)) i := by
  rw [← Bs_sum L hN hEI, sum_eq_single j]
  · simp
  · intro k _ hk
    simp [hk]
  · intro hk
    exact absurd (mem_range.2 (by omega)) hk

theorem rev_Bs {j : ℕ} (hj : j ≤ L.N) : Bs L' j = Bs L (L.N - j) := by
  by_cases hEI : isEI L
  · have hEI' : isEI L' := by rw [rev_isEI h]; exact hEI
    rw [Bs_at L' (h.N ▸ h.pos) hEI' (h.N ▸ hj), Bs_at L h.pos hEI (by omega), h.N,
      ← sum_range_reflect (fun i => bendTerm L (fun k => if k = L.N - j then LinearMap.id else (0 : V →ₗ[ℝ] V)) i)]
    apply sum_congr rfl
    intro i hi
    have hi' : i ≤ L.N := by have := mem_range.1 hi; omega
    rw [rev_bend h _ hi', show L.N + 1 - 1 - i = L.N - i by omega]
    -- the two families agree on the nodes
    unfold bendTerm
    dsimp only
    have ek : ∀ k, k ≤ L.N → (if L.N - k = j then LinearMap.id else (0 : V →ₗ[ℝ] V)) =
        if k = L.N - j then LinearMap.id else 0 := by
      intro k hk
      have : (L.N - k = j) = (k = L.N - j) := by
        apply propext
        omega
      rw [if_congr (iff_of_eq this) rfl rfl]
    by_cases h0 : L.N - i = 0
    · simp only [if_pos h0, ek 0 (by omega), ek 1 h.pos]
    · by_cases h1 : L.N - i = L.N
      · simp only [if_neg h0, if_pos h1, ek (L.N - i) (by omega), ek (L.N - i - 1) (by omega)]
      · simp only [if_neg h0, if_neg h1, ek (L.N - i) (by omega), ek (L.N - i - 1) (by omega),
          ek (L.N - i + 1) (by omega)]
  · have hEI' : ¬ isEI L' := by rw [rev_isEI h]; exact hEI
    rw [Frame.Bs_eq, Frame.Bs_eq, if_neg hEI, if_neg hEI']

/-! ### In water -/

variable {e e' : Env} (hs : SameSea L.N e e') (ho : OffSurface L e)
include hs ho

theorem rev_F {j : ℕ} (hj : j < L.N) : F L' e' j = F L e (L.N - 1 - j) := by
  obtain ⟨h1, h2⟩ := ho.2 (L.N - 1 - j) (by omega)
  unfold F
  rw [(seg_r h hj).1, (seg_r h hj).2, hs.zeta j (by omega), hs.zeta (j + 1) (by omega), h.d,
    show L.N - j = L.N - 1 - j + 1 by omega, show L.N - (j + 1) = L.N - 1 - j by omega,
    add_comm (e.zeta (L.N - 1 - j + 1)), C34_symmetric_partial _ ho.1 _ _ _ h2 h1]

theorem rev_FV {i : ℕ} (hi : i ≤ L.N) : adjacent L'.N (fun j => F L' e' j * L'.V j) i =
    adjacent L.N (fun j => F L e j * L.V j) (L.N - i) :=
  rev_adjacent h _ _ (fun j hj => by rw [rev_F h hs ho hj, h.V j hj]) hi

theorem rev_Fl {i : ℕ} (hi : i ≤ L.N) : adjacent L'.N (fun j => F L' e' j * L'.l j) i =
    adjacent L.N (fun j => F L e j * L.l j) (L.N - i) :=
  rev_adjacent h _ _ (fun j hj => by rw [rev_F h hs ho hj, h.l j hj]) hi

omit hs ho in
theorem rev_l {i : ℕ} (hi : i ≤ L.N) : adjacent L'.N L'.l i = adjacent L.N L.l (L.N - i) :=
  rev_adjacent h _ _ (fun j hj => h.l j hj) hi

/-- C100, masses: the mass matrices of the nodes, in the other order. -/
theorem C100_mass_partial {i : ℕ} (hi : i ≤ L.N) : M L' e' i = M L e (L.N - i) := by
  unfold M m v
  rw [rev_q h hi, rev_FV h hs ho hi, rev_l h hi, hs.rho_w, h.d, h.rho, h.Can, h.Cat]
  simp only [neg_vecMulVec, vecMulVec_neg, neg_neg]

omit ho in
theorem rev_Pb {i : ℕ} (hi : i ≤ L.N) : Pb L' e' i = Pb L e (L.N - i) := by
  rw [Frame.Pb_eq, Frame.Pb_eq, h.isPb, rev_Kurv h hi, h.A, rev_l h hi, h.pin i hi, hs.rho_w, hs.g, hs.zeta i hi,
    hs.pdyn i hi, h.r i hi, rev_q h hi, rev_pvec h hi, cross_neg_neg]

theorem rev_W {i : ℕ} (hi : i ≤ L.N) : W L' e' i = W L e (L.N - i) := by
  unfold W
  rw [h.A, hs.g, rev_adjacent h (fun j => L.l j * (L.rho - F L e j * e.rho_w)) _ (fun j hj => by
    rw [rev_F h hs ho hj, h.l j hj, h.rho, hs.rho_w]) hi]

omit ho in
theorem rev_flow {i : ℕ} (hi : i ≤ L.N) : vq L' e' i = vq L e (L.N - i) ∧ vp L' e' i = vp L e (L.N - i) ∧
    aq L' e' i = aq L e (L.N - i) ∧ ap L' e' i = ap L e (L.N - i) := by
  unfold vp vq ap aq vrel
  rw [hs.U i hi, hs.Ud i hi, h.rd i hi, rev_q h hi]
  simp only [dotProduct_neg, smul_neg, neg_smul, neg_neg, and_self]

theorem rev_drag {i : ℕ} (hi : i ≤ L.N) : Dp L' e' i = Dp L e (L.N - i) ∧ Dq L' e' i = Dq L e (L.N - i) ∧
    Ap L' e' i = Ap L e (L.N - i) ∧ Aq L' e' i = Aq L e (L.N - i) := by
  obtain ⟨h1, h2, h3, h4⟩ := rev_flow h hs hi
  unfold Dp Dq Ap Aq
  rw [h1, h2, h3, h4, rev_Fl h hs ho hi, rev_FV h hs ho hi, hs.rho_w, h.Cdn, h.Cdt, h.Can, h.Cat, h.d]
  exact ⟨rfl, rfl, rfl, rfl⟩

omit ho in
theorem rev_B {i : ℕ} (hi : i ≤ L.N) : B L' e' i = B L e (L.N - i) := by
  unfold B
  rw [h.r i hi, h.rd i hi, rev_l h hi, hs.waterDepth, hs.kb, hs.cb, hs.frictionCoefficient, hs.fricDamp,
    hs.statDynFricScale, h.d]

/-- C100, forces: the net forces on the nodes, in the other order. -/
theorem C100_force_partial {i : ℕ} (hi : i ≤ L.N) : Fnet L' e' i = Fnet L e (L.N - i) := by
  obtain ⟨h1, h2, h3, h4⟩ := rev_drag h hs ho hi
  unfold Fnet
  rw [rev_axial h hi, rev_W h hs ho hi, h1, h2, h3, h4, rev_B h hs hi, rev_Bs h hi, rev_Pb h hs hi]

/-- C100, ends: what each end of the line passes on to the object it is attached to. -/
theorem C100_ends_partial (p : EndPt) : getEndStuff L' e' (other p) = getEndStuff L e p := by
  have h1 := C100_force_partial h hs ho (i := 0) (by omega)
  have h2 := C100_force_partial h hs ho (i := L.N) le_rfl
  have h3 := C100_mass_partial h hs ho (i := 0) (by omega)
  have h4 := C100_mass_partial h hs ho (i := L.N) le_rfl
  simp only [Nat.sub_zero, Nat.sub_self] at h1 h2 h3 h4
  cases p
  · simp only [other, getEndStuff, h1, h3]
  · simp only [other, getEndStuff, h.N, h2, h4]

/-- C100, output: the tensions written for the nodes. -/
theorem C100_output_partial {i : ℕ} (hi : i ≤ L.N) : outputTen L' e' i = outputTen L e (L.N - i) := by
  unfold outputTen
  rw [C100_force_partial h hs ho hi]

omit hs ho

/-- C100, tensions: those of the nodes have the opposite direction. -/
theorem C100_tension {i : ℕ} (hi : i ≤ L.N) : getNodeTen L' i = (getNodeTen L (L.N - i)).map (- ·) := by
  have hp := h.pos
  unfold getNodeTen
  rw [h.N, if_neg (show ¬ i > L.N by omega), if_neg (show ¬ L.N - i > L.N by omega)]
  by_cases h0 : i = 0
  · subst h0
    rw [if_pos rfl, if_neg (show ¬ L.N - 0 = 0 by omega), if_pos (show L.N - 0 = L.N by omega), rev_T h (by omega),
      rev_Td h (by omega)]
    simp only [Nat.sub_zero]
    cases Td L (L.N - 1) <;> simp
    abel
  rw [if_neg h0]
  by_cases h1 : i = L.N
  · rw [if_pos h1, if_pos (show L.N - i = 0 by omega), rev_T h (by omega), rev_Td h (by omega),
      show L.N - 1 - (L.N - 1) = 0 by omega]
    cases Td L 0 <;> simp
    abel
  · rw [if_neg h1, if_neg (show ¬ L.N - i = 0 by omega), if_neg (show ¬ L.N - i = L.N by omega), rev_T h (by omega),
      rev_T h (by omega), rev_Td h (by omega), rev_Td h (by omega), show L.N - 1 - (i - 1) = L.N - i by omega,
      show L.N - 1 - i = L.N - i - 1 by omega]
    cases Td L (L.N - i) <;> cases Td L (L.N - i - 1) <;> simp
    module

/-- C100: the tension at the fairlead is that of the node that was the anchor. -/
theorem C100_fairlead : fairTen L' = (getNodeTen L 0).map Mooring.norm := by
  unfold fairTen
  rw [h.N, C100_tension h le_rfl, Nat.sub_self]
  cases getNodeTen L 0 <;> simp [norm_neg']

end

/-! ## Every line has such a counterpart -/

/-- A line counted from the other end. -/
def reverse (L : Line) : Line :=
  { L with
    l := fun i => L.l (L.N - 1 - i)
    V := fun i => L.V (L.N - 1 - i)
    r := fun i => L.r (L.N - i)
    rd := fun i => L.rd (L.N - i)
    endTypeA := L.endTypeB
    endTypeB := L.endTypeA
    qA := -L.qB
    qB := -L.qA
    pin := fun i => L.pin (L.N - i) }

/-- Its water. -/
def reverseSea (N : ℕ) (e : Env) : Env :=
  { e with
    zeta := fun i => e.zeta (N - i)
    U := fun i => e.U (N - i)
    Ud := fun i => e.Ud (N - i)
    pdyn := fun i => e.pdyn (N - i) }

/-- The hypotheses of the theorems above are met by every line and sea. -/
theorem C100_exists (L : Line) (hN : 1 ≤ L.N) (e : Env) : Reversed L (reverse L) ∧ SameSea L.N e (reverseSea L.N e) := by
  refine ⟨⟨rfl, hN, rfl, rfl, rfl, rfl, rfl, rfl, rfl, rfl, rfl, rfl, rfl, rfl, rfl, rfl, ?_, ?_, ?_, ?_, rfl, rfl,
    rfl, rfl, ?_, rfl⟩, ⟨rfl, rfl, rfl, rfl, rfl, rfl, rfl, rfl, ?_, ?_, ?_, ?_⟩⟩ <;> intros <;> rfl

/-- C100 fails for the largest tension: `MoorDyn_GetLineMaxTen` leaves out the end B. -/
theorem C100_max_false : ∃ L L' : Line, Reversed L L' ∧ maxTen L = some (1 / 2) ∧ maxTen L' ≠ some (1 / 2) := by
  have hr : Reversed taut (reverse taut) := (C100_exists taut (by decide) ⟨0, 0, 0, 0, 0, 0, 0, fun _ _ => 0, fun _ => 0,
    fun _ => 0, fun _ => 0, fun _ => 0⟩).1
  refine ⟨taut, reverse taut, hr, taut_max, ?_⟩
  intro hm
  obtain ⟨h0, h1, d0, d1⟩ := taut_T
  have hN : taut.N = 2 := rfl
  have n2 : getNodeTen taut 2 = some ![1, 0, 0] := by
    unfold getNodeTen
    rw [hN, if_neg (by omega), if_neg (by omega), if_pos rfl, d1, h1]
    simp
  have n0 : getNodeTen (reverse taut) 0 = some (-![1, 0, 0]) := by
    rw [C100_tension hr (by omega), hN, n2]
    rfl
  obtain ⟨x, hx, this⟩ := (C31_max_partial _ (by decide) _ hm).1 0 (by decide)
  rw [n0, Option.some.injEq] at hx
  rw [← hx, norm_neg', norm_eq ![1, 0, 0] 1 zero_le_one (by simp [dotProduct, Fin.sum_univ_three])] at this
  norm_num at this

/-- A vertical segment that stands on the water. -/
noncomputable def standing : Line :=
  { elbow with
    N := 1
    Can := 1
    Cat := 1
    V := fun _ => 1
    r := fun i => if i = 0 then ![0, 0, 0] else ![0, 0, 1] }

/-- Still water. -/
noncomputable def still : Env := ⟨1, 0, 0, 0, 0, 0, 0, fun _ _ => -10, fun _ => 0, fun _ => 0, fun _ => 0, fun _ => 0⟩

/-- C100 fails when an end of a segment is exactly at the surface: the segment is taken to be under the water
if that end comes first, dry if it comes second. -/
theorem C100_surface_false : ∃ L L' : Line, ∃ e e' : Env, Reversed L L' ∧ SameSea L.N e e' ∧ 0 ≤ L.d ∧
    M L' e' 0 ≠ M L e (L.N - 0) := by
  obtain ⟨hr, hs⟩ := C100_exists standing (by decide) still
  have hd : standing.d = elbow.d := rfl
  refine ⟨standing, reverse standing, still, reverseSea 1 still, hr, hs, ?_, ?_⟩
  · rw [hd]
    simp [elbow]
  have hN : standing.N = 1 := rfl
  have f1 : F standing still 0 = 1 := by
    unfold F
    have := (C34_end_at_surface_false standing.d).1
    simpa [standing, still] using this
  have f2 : F (reverse standing) (reverseSea 1 still) 0 = 0 := by
    unfold F
    have := (C34_end_at_surface_false standing.d).2
    simpa [reverse, standing, still, reverseSea] using this
  intro h
  have e1 : ∀ Q : M3 ℝ, (1 : ℝ) • (1 - Q) + (1 : ℝ) • Q = 1 := fun Q => by simp
  have m1 : M standing still (standing.N - 0) = m standing 1 • 1 + (1 / 2 : ℝ) • (1 : M3 ℝ) := by
    have hv : v standing still 1 = 1 / 2 := by
      have : adjacent standing.N (fun j => F standing still j * standing.V j) 1 = F standing still 0 * 1 := by
        simp [adjacent, hN, standing]
      unfold v
      rw [this, f1]
      ring
    show m standing 1 • 1 + (1 * v standing still 1) • ((1 : ℝ) • (1 - _) + (1 : ℝ) • _) = _
    rw [e1, hv, one_mul]
  have m2 : M (reverse standing) (reverseSea 1 still) 0 = m (reverse standing) 0 • 1 := by
    have hv : v (reverse standing) (reverseSea 1 still) 0 = 0 := by
      unfold v adjacent
      rw [if_pos rfl]
      dsimp only
      rw [f2]
      ring
    show m (reverse standing) 0 • 1 + (1 * v (reverse standing) (reverseSea 1 still) 0) •
      ((1 : ℝ) • (1 - _) + (1 : ℝ) • _) = _
    rw [hv]
    simp
  have m3 : m (reverse standing) 0 = m standing 1 := by
    unfold m
    rw [rev_l hr (by omega)]
    rfl
  rw [m1, m2, m3] at h
  have := congrFun (congrFun h 0) 0
  simp at this

/-- A line with an end out of the water and the other in it has no end at the surface. -/
example : OffSurface { standing with r := fun i => if i = 0 then ![0, 0, -1] else ![0, 0, 2] } still := by
  refine ⟨?_, ?_⟩
  · simp [standing, elbow]
  · intro j hj
    have : j = 0 := by
      change j < 1 at hj
      omega
    subst this
    simp [still]

end MD.Reverse
