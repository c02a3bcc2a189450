import Verif.Spec.Vtk
import Verif.Props.Rotation
import Mathlib.Analysis.SpecialFunctions.Complex.Arg
import Mathlib.Tactic.FieldSimp
import Mathlib.Tactic.Linarith

/-!
# C115: what is saved for VTK
-/

set_option linter.unusedSimpArgs false
set_option linter.unusedVariables false
set_option linter.unusedSectionVars false
set_option linter.unnecessarySeqFocus false

namespace MD.Vtk

open Matrix MD.Mat MD.Rot

/-! ## Lemmas -/

section Lists

variable {α β : Type}

theorem mapM_range_some {n : ℕ} {f : ℕ → Option α} {g : ℕ → α} (h : ∀ i < n, f i = some (g i)) : (List.range n).mapM f = some ((List.range n).map g) := by
  have : ∀ l : List ℕ, (∀ i ∈ l, i < n) → l.mapM f = some (l.map g) := by
    intro l
    induction l with
    | nil => intro _; rfl
    | cons a l ih =>
      intro hl
      rw [List.mapM_cons, h a (hl a (by simp)), ih fun i hi => hl i (by simp [hi])]
      rfl
  exact this _ fun i hi => List.mem_range.1 hi

theorem map_getElem_range (l : List α) (f : α → β) (d : α) : (List.range l.length).map (fun i => f (l[i]?.getD d)) = l.map f := by
  apply List.ext_getElem
  · simp
  · intro i h₁ h₂
    have : i < l.length := by simpa using h₂
    simp [this]

theorem getElem?_some_getD (l : List α) {i : ℕ} (h : i < l.length) (d : α) : l[i]? = some (l[i]?.getD d) := by
  simp [h]

end Lists

/-! ## Lines -/

section Line

variable {K F : Type} [CommRing K] (single : K → F)

theorem vectors_some (name : String) {data : List (V3 K)} (h : 0 < data.length) : vectors single name data = some ⟨name, 3, data.map (three single)⟩ := by
  cases data with
  | nil => simp at h
  | cons v vs => rfl

theorem line_cells (n : ℕ) : ((List.range (n + 1)).map fun i => if i = n then ([] : List (List ℕ)) else [[i, i + 1]]).flatten =
    (List.range n).map fun i => [i, i + 1] := by
  rw [List.range_succ, List.map_append, List.flatten_append]
  have : (List.range n).map (fun i => if i = n then ([] : List (List ℕ)) else [[i, i + 1]]) = (List.range n).map fun i => [[i, i + 1]] :=
    List.map_congr_left fun i hi => by rw [if_neg (by have := List.mem_range.1 hi; omega)]
  rw [this]
  have : ∀ l : List ℕ, (l.map fun i => [[i, i + 1]]).flatten = l.map fun i => [i, i + 1] := by
    intro l
    induction l with
    | nil => rfl
    | cons a l ih => rw [List.map_cons, List.flatten_cons, ih]; rfl
  rw [this]
  simp

theorem lineVtk_eq {L : LineArrays K} (h : L.Allocated) (hN : 0 < L.N) : lineVtk single L = some {
    points := L.r.map (three single)
    verts := []
    lines := (List.range L.N).map fun i => [i, i + 1]
    cellData := [scalars single "lstr" L.lstr, scalars single "ldstr" L.ldstr, scalars single "V" L.V, ⟨"T", 3, L.T.map (three single)⟩,
      scalars single "F" L.F]
    pointData := [⟨"rd", 3, L.rd.map (three single)⟩, scalars single "Kurv" L.Kurv, ⟨"M", 9, L.M.map (nine single)⟩,
      ⟨"Fnet", 3, L.Fnet.map (three single)⟩, ⟨"Drag", 3, (List.zipWith (· + ·) L.Dq L.Dp).map (three single)⟩, ⟨"U", 3, L.U.map (three single)⟩] } := by
  have ht : (List.range (L.N + 1)).mapM (lineTurn single L) = some ((List.range (L.N + 1)).map fun i =>
      (three single (L.r[i]?.getD 0), three single (L.Dq[i]?.getD 0 + L.Dp[i]?.getD 0), nine single (L.M[i]?.getD 0),
        three single (L.Fnet[i]?.getD 0), if i = L.N then [] else [[i, i + 1]])) := by
    apply mapM_range_some
    intro i hi
    unfold lineTurn
    rw [getElem?_some_getD L.r (by rw [h.r]; exact hi) 0, getElem?_some_getD L.Dq (by rw [h.Dq]; exact hi) 0,
      getElem?_some_getD L.Dp (by rw [h.Dp]; exact hi) 0, getElem?_some_getD L.M (by rw [h.M]; exact hi) 0,
      getElem?_some_getD L.Fnet (by rw [h.Fnet]; exact hi) 0, h.r]
    rfl
  unfold lineVtk
  rw [vectors_some single "rd" (by rw [h.rd]; omega), vectors_some single "Fnet" (by rw [h.Fnet]; omega), vectors_some single "U" (by rw [h.U]; omega),
    vectors_some single "T" (by rw [h.T]; omega), ht]
  simp only [Option.bind_eq_bind, Option.bind_some, List.map_map, Function.comp_def, Option.pure_def, Option.some.injEq, Poly.mk.injEq, line_cells,
    true_and]
  have e₁ := map_getElem_range L.r (three single) 0
  have e₂ := map_getElem_range L.M (nine single) 0
  have e₃ := map_getElem_range L.Fnet (three single) 0
  rw [h.r] at e₁
  rw [h.M] at e₂
  rw [h.Fnet] at e₃
  rw [e₁, e₂, e₃]
  have e₄ : (List.range (L.N + 1)).map (fun i => three single (L.Dq[i]?.getD 0 + L.Dp[i]?.getD 0)) =
      (List.zipWith (· + ·) L.Dq L.Dp).map (three single) := by
    apply List.ext_getElem
    · simp [h.Dq, h.Dp]
    · intro i h₁ h₂
      have : i < L.N + 1 := by simpa using h₁
      simp [h.Dq, h.Dp, this]
  rw [e₄]
  simp

/-- **C115**, lines: the file of a line has a point for each node where the node is, a cell for each segment between its nodes, and under each name
the quantity of that name, node by node or segment by segment. `F` holds the submerged parts of the segments, and one number more. -/
theorem C115_line {L : LineArrays K} (h : L.Allocated) (hN : 0 < L.N) : ∃ p, lineVtk single L = some p ∧
    p.points = L.r.map (three single) ∧ p.verts = [] ∧ p.lines = (List.range L.N).map (fun i => [i, i + 1]) ∧
    table p.pointData "rd" = some (L.rd.map (three single)) ∧ table p.pointData "Kurv" = some (L.Kurv.map fun x => [single x]) ∧
    table p.pointData "M" = some (L.M.map (nine single)) ∧ table p.pointData "Fnet" = some (L.Fnet.map (three single)) ∧
    table p.pointData "Drag" = some ((List.zipWith (· + ·) L.Dq L.Dp).map (three single)) ∧ table p.pointData "U" = some (L.U.map (three single)) ∧
    table p.cellData "lstr" = some (L.lstr.map fun x => [single x]) ∧ table p.cellData "ldstr" = some (L.ldstr.map fun x => [single x]) ∧
    table p.cellData "V" = some (L.V.map fun x => [single x]) ∧ table p.cellData "T" = some (L.T.map (three single)) ∧
    table p.cellData "F" = some (L.F.map fun x => [single x]) :=
  ⟨_, lineVtk_eq single h hN, rfl, rfl, rfl, rfl, rfl, rfl, rfl, rfl, rfl, rfl, rfl, rfl, rfl, rfl⟩

/-- **C115**, lines: without that array the file is sound. -/
theorem C115_line_sound_partial {L : LineArrays K} (h : L.Allocated) (hN : 0 < L.N) {p : Poly F} (hp : lineVtk single L = some p) :
    ({ p with cellData := p.cellData.filter fun a => a.name ≠ "F" } : Poly F).Sound := by
  obtain rfl : _ = p := Option.some.inj ((lineVtk_eq single h hN).symm.trans hp)
  have hf : ∀ (a b c d e : Arr F), a.name = "lstr" → b.name = "ldstr" → c.name = "V" → d.name = "T" → e.name = "F" →
      [a, b, c, d, e].filter (fun a => a.name ≠ "F") = [a, b, c, d] := by
    intro a b c d e ha hb hc hd he
    simp [List.filter_cons, ha, hb, hc, hd, he]
  rw [hf _ _ _ _ _ rfl rfl rfl rfl rfl]
  refine ⟨?_, ?_, ?_, ?_, ?_⟩
  · intro c hc i hi
    obtain ⟨j, hj, rfl⟩ := List.mem_map.1 hc
    have := List.mem_range.1 hj
    simp only [List.mem_cons, List.not_mem_nil, or_false] at hi
    simp only [List.length_map, h.r]
    omega
  · intro a ha
    simp only [List.mem_cons, List.not_mem_nil, or_false] at ha
    rcases ha with rfl | rfl | rfl | rfl | rfl | rfl <;> simp [scalars, h.r, h.rd, h.Kurv, h.M, h.Fnet, h.Dq, h.Dp, h.U]
  · intro a ha
    simp only [List.mem_cons, List.not_mem_nil, or_false] at ha
    rcases ha with rfl | rfl | rfl | rfl <;> simp [scalars, h.lstr, h.ldstr, h.V, h.T]
  · intro a ha t ht
    simp only [List.mem_append, List.mem_cons, List.not_mem_nil, or_false] at ha
    rcases ha with (rfl | rfl | rfl | rfl | rfl | rfl) | rfl | rfl | rfl | rfl <;>
      · simp only [scalars, List.mem_map] at ht
        obtain ⟨x, _, rfl⟩ := ht
        rfl
  · simp [scalars]

/-- **C115**: not so with it. For every line the array with the submerged parts has one tuple more than there are cells. -/
theorem C115_line_sound_false {L : LineArrays K} (h : L.Allocated) (hN : 0 < L.N) {p : Poly F} (hp : lineVtk single L = some p) :
    ¬ p.Sound ∧ ∃ a ∈ p.cellData, a.name = "F" ∧ a.tuples.length = (p.verts ++ p.lines).length + 1 := by
  obtain rfl : _ = p := Option.some.inj ((lineVtk_eq single h hN).symm.trans hp)
  have : (scalars single "F" L.F).tuples.length = L.N + 1 := by simp [scalars, h.F]
  refine ⟨fun hs => ?_, scalars single "F" L.F, by simp, rfl, by rw [this]; simp⟩
  have := hs.perCell (scalars single "F" L.F) (by simp)
  simp [scalars, h.F] at this

/-- **C115**: saving a line without segments, which an input file can ask for, is undefined. -/
theorem C115_line_empty_undefined {L : LineArrays K} (h : L.Allocated) (hN : L.N = 0) : lineVtk single L = none := by
  have hT : L.T = [] := List.eq_nil_of_length_eq_zero (by rw [h.T, hN])
  unfold lineVtk
  rw [vectors_some single "rd" (by rw [h.rd]; omega), vectors_some single "Fnet" (by rw [h.Fnet]; omega),
    vectors_some single "U" (by rw [h.U]; omega), hT]
  rfl

/-! ## Rods and points -/

/-- **C115**, rods: a point for each node and one cell through all of them; a rod without length is one point. -/
theorem C115_rod {R : RodArrays K} (h : R.Allocated) : ∃ p, rodVtk single R = some p ∧ p.Sound ∧ p.points = R.r.map (three single) ∧
    (p.verts, p.lines) = (if R.N = 0 then ([[0]], []) else ([], [List.range (R.N + 1)])) ∧
    table p.pointData "rd" = some (R.rd.map (three single)) ∧ table p.pointData "Fnet" = some (R.Fnet.map (three single)) := by
  have hn : (if R.N = 0 then 1 else R.r.length) = R.N + 1 := by
    split_ifs with h0
    · omega
    · exact h.r
  have ht : (List.range (R.N + 1)).mapM (rodTurn single R) = some ((List.range (R.N + 1)).map fun i =>
      (three single (R.r[i]?.getD 0), three single (R.rd[i]?.getD 0), three single (R.Fnet[i]?.getD 0))) := by
    apply mapM_range_some
    intro i hi
    unfold rodTurn
    rw [getElem?_some_getD R.r (by rw [h.r]; exact hi) 0, getElem?_some_getD R.rd (by rw [h.rd]; exact hi) 0,
      getElem?_some_getD R.Fnet (by rw [h.Fnet]; exact hi) 0]
    rfl
  have e₁ := map_getElem_range R.r (three single) 0
  have e₂ := map_getElem_range R.rd (three single) 0
  have e₃ := map_getElem_range R.Fnet (three single) 0
  rw [h.r] at e₁
  rw [h.rd] at e₂
  rw [h.Fnet] at e₃
  have hp : rodVtk single R = some {
      points := R.r.map (three single)
      verts := if R.N = 0 then [[0]] else []
      lines := if R.N = 0 then [] else [List.range (R.N + 1)]
      pointData := [⟨"rd", 3, R.rd.map (three single)⟩, ⟨"Fnet", 3, R.Fnet.map (three single)⟩]
      cellData := [] } := by
    unfold rodVtk
    rw [hn, ht]
    simp only [Option.bind_eq_bind, Option.bind_some, List.map_map, Function.comp_def, Option.pure_def, e₁, e₂, e₃, h.r]
  refine ⟨_, hp, ⟨?_, ?_, ?_, ?_, ?_⟩, rfl, ?_, rfl, rfl⟩
  · intro c hc i hi
    simp only [List.length_map, h.r]
    by_cases h0 : R.N = 0
    · simp only [h0, if_true, List.append_nil, List.mem_singleton] at hc
      subst hc
      simp at hi
      omega
    · simp only [h0, if_false, List.nil_append, List.mem_singleton] at hc
      subst hc
      exact List.mem_range.1 hi
  · intro a ha
    simp only [List.mem_cons, List.not_mem_nil, or_false] at ha
    rcases ha with rfl | rfl <;> simp [h.r, h.rd, h.Fnet]
  · intro a ha
    cases ha
  · intro a ha t ht
    simp only [List.append_nil, List.mem_cons, List.not_mem_nil, or_false] at ha
    rcases ha with rfl | rfl <;>
      · simp only [List.mem_map] at ht
        obtain ⟨x, _, rfl⟩ := ht
        rfl
  · simp
  · dsimp only
    split_ifs <;> rfl

/-- **C115**, points. -/
theorem C115_point (r rd Fnet : V3 K) (M : M3 K) : (pointVtk single r rd Fnet M).Sound ∧ (pointVtk single r rd Fnet M).points = [three single r] ∧
    (pointVtk single r rd Fnet M).verts = [[0]] ∧ (pointVtk single r rd Fnet M).lines = [] ∧
    table (pointVtk single r rd Fnet M).pointData "rd" = some [three single rd] ∧
    table (pointVtk single r rd Fnet M).pointData "M" = some [nine single M] ∧
    table (pointVtk single r rd Fnet M).pointData "Fnet" = some [three single Fnet] := by
  refine ⟨⟨?_, ?_, ?_, ?_, ?_⟩, rfl, rfl, rfl, rfl, rfl, rfl⟩ <;> simp [pointVtk, three, nine]

end Line

/-! ## Bodies -/

theorem hamilton_normSq (q : Quat ℝ) : Quaternion.normSq (hamilton q.w q.x q.y q.z) = q.normSq := by
  rw [Quaternion.normSq_def']
  show q.w ^ 2 + q.x ^ 2 + q.y ^ 2 + q.z ^ 2 = _
  simp only [Quat.normSq]
  ring

theorem normSq_pos {q : Quat ℝ} (h : ¬ (q.w = 0 ∧ q.x = 0 ∧ q.y = 0 ∧ q.z = 0)) : 0 < q.normSq := by
  rcases (normSq_nonneg q).lt_or_eq with h1 | h1
  · exact h1
  · refine absurd ⟨?_, ?_, ?_, ?_⟩ h <;> simp only [Quat.normSq] at h1 <;> nlinarith [sq_nonneg q.w, sq_nonneg q.x, sq_nonneg q.y, sq_nonneg q.z]

/-- The matrix of a quaternion, divided by the square of its length. -/
theorem orMat_mul {q : Quat ℝ} (h : 0 < q.normSq) : orMat q = (1 / q.normSq) • !![
    q.w * q.w + q.x * q.x - q.y * q.y - q.z * q.z, 2 * (q.x * q.y - q.w * q.z), 2 * (q.x * q.z + q.w * q.y);
    2 * (q.x * q.y + q.w * q.z), q.w * q.w - q.x * q.x + q.y * q.y - q.z * q.z, 2 * (q.y * q.z - q.w * q.x);
    2 * (q.x * q.z - q.w * q.y), 2 * (q.y * q.z + q.w * q.x), q.w * q.w - q.x * q.x - q.y * q.y + q.z * q.z] := by
  have hs : Real.sqrt q.normSq ^ 2 = q.normSq := Real.sq_sqrt h.le
  have hs0 : Real.sqrt q.normSq ≠ 0 := (Real.sqrt_pos.2 h).ne'
  rw [orMat, Quat.normalized, if_pos h]
  conv_rhs => rw [← hs]
  have hq : q.w * q.w + q.x * q.x + q.y * q.y + q.z * q.z = Real.sqrt q.normSq ^ 2 := by rw [hs]; rfl
  generalize Real.sqrt q.normSq = s at *
  ext i j
  fin_cases i <;> fin_cases j <;> simp [Quat.toMat, Quat.smul] <;> field_simp <;> linarith

theorem turned_eq (q : Quat ℝ) (v : V3 ℝ) : turned q v = orMat q *ᵥ v := by
  unfold turned
  dsimp only
  split_ifs with h
  · obtain ⟨hw, hx, hy, hz⟩ := h
    have : ¬ 0 < q.normSq := by simp [Quat.normSq, hw, hx, hy, hz]
    rw [orMat, Quat.normalized, if_neg this]
    ext i
    fin_cases i <;> simp [Quat.toMat, hx, hy, hz, Matrix.mulVec, dotProduct, Fin.sum_univ_three]
  · have h0 : 0 < q.normSq := normSq_pos h
    rw [orMat_mul h0, Quaternion.inv_def, hamilton_normSq]
    have e₁ : (hamilton q.w q.x q.y q.z).re = q.w := rfl
    have e₂ : (hamilton q.w q.x q.y q.z).imI = q.x := rfl
    have e₃ : (hamilton q.w q.x q.y q.z).imJ = q.y := rfl
    have e₄ : (hamilton q.w q.x q.y q.z).imK = q.z := rfl
    have f₁ : (hamilton 0 (v 0) (v 1) (v 2)).re = 0 := rfl
    have f₂ : (hamilton 0 (v 0) (v 1) (v 2)).imI = v 0 := rfl
    have f₃ : (hamilton 0 (v 0) (v 1) (v 2)).imJ = v 1 := rfl
    have f₄ : (hamilton 0 (v 0) (v 1) (v 2)).imK = v 2 := rfl
    ext i
    fin_cases i <;> simp [Matrix.mulVec, dotProduct, Fin.sum_univ_three, e₁, e₂, e₃, e₄, f₁, f₂, f₃, f₄] <;> ring

theorem rotateWXYZ_angleAxis (q : Quat ℝ) : rotateWXYZ (180 / Real.pi * (angleAxis q).1) (angleAxis q).2 = orMat q := by
  by_cases hv : q.x = 0 ∧ q.y = 0 ∧ q.z = 0
  · obtain ⟨hx, hy, hz⟩ := hv
    have hA : angleAxis q = (0, ![1, 0, 0]) := by simp [angleAxis, hx, hy, hz]
    rw [hA]
    dsimp only
    rw [rotateWXYZ, if_pos (.inl (by ring))]
    by_cases hw : q.w = 0
    · have : ¬ 0 < q.normSq := by simp [Quat.normSq, hw, hx, hy, hz]
      rw [orMat, Quat.normalized, if_neg this]
      ext i j
      fin_cases i <;> fin_cases j <;> simp [Quat.toMat, hx, hy, hz]
    · have h0 : 0 < q.normSq := normSq_pos fun h => hw h.1
      have hn : q.normSq = q.w * q.w := by simp [Quat.normSq, hx, hy, hz]
      rw [orMat_mul h0, hn]
      ext i j
      fin_cases i <;> fin_cases j <;> simp [hx, hy, hz, hw] <;> field_simp
  · have hm : 0 < q.x * q.x + q.y * q.y + q.z * q.z := by
      by_contra hc
      refine hv ⟨?_, ?_, ?_⟩ <;> nlinarith [sq_nonneg q.x, sq_nonneg q.y, sq_nonneg q.z]
    have h0 : 0 < q.normSq := normSq_pos fun h => hv h.2
    have hn2 := Real.sq_sqrt hm.le
    have hn := Real.sqrt_pos.2 hm
    generalize hN : Real.sqrt (q.x * q.x + q.y * q.y + q.z * q.z) = n at *
    -- the half angle
    let c : ℂ := ⟨|q.w|, n⟩
    have hc : ‖c‖ ^ 2 = q.normSq := by
      rw [← Complex.normSq_eq_norm_sq, Complex.normSq_apply]
      show |q.w| * |q.w| + n * n = _
      rw [abs_mul_abs_self, ← pow_two n, hn2]
      simp only [Quat.normSq]
      ring
    have hcp : 0 < ‖c‖ := by
      rcases (norm_nonneg c).lt_or_eq with h | h
      · exact h
      · rw [← h] at hc; norm_num at hc; linarith
    have hc0 : c ≠ 0 := norm_pos_iff.1 hcp
    have hcos : Real.cos (atan2 n |q.w|) = |q.w| / ‖c‖ := Complex.cos_arg hc0
    have hsin : Real.sin (atan2 n |q.w|) = n / ‖c‖ := Complex.sin_arg c
    have harg : atan2 n |q.w| ≠ 0 := by
      intro h
      rw [h, Real.sin_zero] at hsin
      have := (div_eq_zero_iff.1 hsin.symm)
      rcases this with h | h <;> linarith
    obtain ⟨e, he, hA, hw⟩ : ∃ e : ℝ, e * e = 1 ∧ angleAxis q = (2 * atan2 n |q.w|, ![q.x / (e * n), q.y / (e * n), q.z / (e * n)]) ∧ |q.w| = e * q.w := by
      unfold angleAxis
      dsimp only
      rw [hN, if_pos hn.ne']
      by_cases hw : q.w < 0
      · exact ⟨-1, by norm_num, by rw [if_pos hw, neg_one_mul], by rw [abs_of_neg hw]; ring⟩
      · exact ⟨1, by norm_num, by rw [if_neg hw, one_mul], by rw [abs_of_nonneg (not_lt.1 hw)]; ring⟩
    have he0 : e ≠ 0 := by rintro rfl; norm_num at he
    rw [hA]
    dsimp only
    have hpi := Real.pi_ne_zero
    rw [rotateWXYZ, if_neg]
    · have h1 : (1 / 2 * (180 / Real.pi * (2 * atan2 n |q.w|) * (Real.pi / 180)) : ℝ) = atan2 n |q.w| := by
        field_simp
      have h2 : Real.sqrt (![q.x / (e * n), q.y / (e * n), q.z / (e * n)] 0 * ![q.x / (e * n), q.y / (e * n), q.z / (e * n)] 0 +
          ![q.x / (e * n), q.y / (e * n), q.z / (e * n)] 1 * ![q.x / (e * n), q.y / (e * n), q.z / (e * n)] 1 +
          ![q.x / (e * n), q.y / (e * n), q.z / (e * n)] 2 * ![q.x / (e * n), q.y / (e * n), q.z / (e * n)] 2) = 1 := by
        rw [Real.sqrt_eq_one]
        simp only [Matrix.cons_val_zero, Matrix.cons_val_one, Matrix.cons_val]
        have h3 : q.x / (e * n) * (q.x / (e * n)) + q.y / (e * n) * (q.y / (e * n)) + q.z / (e * n) * (q.z / (e * n)) =
            (q.x * q.x + q.y * q.y + q.z * q.z) / ((e * e) * n ^ 2) := by
          field_simp
        rw [h3, he, one_mul, hn2, div_self hm.ne']
      have hcn := hcp.ne'
      have hn0 := hn.ne'
      have h4 : ∀ x : ℝ, x / (e * n) * (n / ‖c‖ / 1) = e * x / ‖c‖ := by
        intro x
        field_simp
        rw [pow_two, he, mul_one]
      dsimp only
      rw [h1, h2, hcos, hsin, orMat_mul h0, hw, ← hc]
      simp only [Matrix.cons_val_zero, Matrix.cons_val_one, Matrix.cons_val, h4]
      have h5 : ∀ a b : ℝ, e * a / ‖c‖ * (e * b / ‖c‖) = a * b / ‖c‖ ^ 2 := by
        intro a b
        have : e * a / ‖c‖ * (e * b / ‖c‖) = e * e * (a * b) / ‖c‖ ^ 2 := by ring
        rw [this, he, one_mul]
      simp only [h5]
      ext i j
      fin_cases i <;> fin_cases j <;> simp <;> ring
    · rintro (h | h)
      · have : (180 / Real.pi * (2 * atan2 n |q.w|) : ℝ) ≠ 0 := by positivity
        exact this h
      · apply hv
        have hen : e * n ≠ 0 := mul_ne_zero he0 hn.ne'
        refine ⟨?_, ?_, ?_⟩
        · have := congrFun h 0; simpa [he0, hn.ne'] using this
        · have := congrFun h 1; simpa [he0, hn.ne'] using this
        · have := congrFun h 2; simpa [he0, hn.ne'] using this

/-- **C115**, bodies: every vertex of the shape of a body is saved where the body has it: turned by the quaternion of the body, of whatever length, and
moved to where the body is. That is the rotation by which the body places the points and rods fixed to it. -/
theorem C115_body {F : Type} (single : ℝ → F) (shape : Shape F) (pos : V3 ℝ) (q : Quat ℝ) :
    (bodyVtk single shape pos q).points = shape.vertices.map (fun v => three single (pos + turned q v)) ∧
    (∀ v, turned q v = orMat q *ᵥ v) ∧ (bodyVtk single shape pos q).verts = shape.verts ∧ (bodyVtk single shape pos q).lines = shape.lines ∧
    (bodyVtk single shape pos q).pointData = shape.pointData ∧ (bodyVtk single shape pos q).cellData = shape.cellData := by
  refine ⟨?_, turned_eq q, rfl, rfl, rfl, rfl⟩
  unfold bodyVtk
  dsimp only
  rw [rotateWXYZ_angleAxis]
  refine List.map_congr_left fun v _ => ?_
  rw [turned_eq, add_comm]

/-- The axes that represent a body by default: from where it is, one unit along each of its axes, and a sound file. -/
theorem C115_axes {F : Type} (single : ℝ → F) (char : Char → F) (pos : V3 ℝ) (q : Quat ℝ) :
    (bodyVtk single (axes char) pos q).points = [pos, pos + turned q ![1, 0, 0], pos + turned q ![0, 1, 0], pos + turned q ![0, 0, 1]].map (three single) ∧
    (bodyVtk single (axes char) pos q).lines = [[0, 1], [0, 2], [0, 3]] ∧
    table (bodyVtk single (axes char) pos q).cellData "axis" = some [[char 'x'], [char 'y'], [char 'z']] ∧
    (bodyVtk single (axes char) pos q).Sound := by
  have h0 : turned q ![0, 0, 0] = 0 := by
    rw [turned_eq]
    have : (![0, 0, 0] : V3 ℝ) = 0 := by ext i; fin_cases i <;> rfl
    rw [this, Matrix.mulVec_zero]
  refine ⟨?_, rfl, rfl, ?_, ?_, ?_, ?_, ?_⟩
  · rw [(C115_body single (axes char) pos q).1]
    simp [axes, h0]
  · intro c hc i hi
    have hl : (bodyVtk single (axes char) pos q).points.length = 4 := by simp [bodyVtk, axes]
    rw [hl]
    have hc' : c ∈ ([[0, 1], [0, 2], [0, 3]] : List (List ℕ)) := hc
    simp only [List.mem_cons, List.not_mem_nil, or_false] at hc'
    rcases hc' with rfl | rfl | rfl <;> simp at hi <;> omega
  all_goals simp [bodyVtk, axes]

/-! ## The whole system -/

section Blocks

variable {β : Type}

theorem setBlocks_snoc (l : List (Option β)) (n : ℕ) (bs : List β) (b : β) : setBlocks l n (bs ++ [b]) = setBlock (setBlocks l n bs) (n + bs.length) b := by
  unfold setBlocks
  rw [List.length_append, List.length_singleton, List.range_succ, List.foldl_append]
  have : ∀ (r : List ℕ) (l : List (Option β)), (∀ i ∈ r, i < bs.length) →
      r.foldl (fun l i => (bs ++ [b])[i]?.elim l (setBlock l (n + i))) l =
      r.foldl (fun l i => bs[i]?.elim l (setBlock l (n + i))) l := by
    intro r
    induction r with
    | nil => intro _ _; rfl
    | cons a r ih =>
      intro l h
      rw [List.foldl_cons, List.foldl_cons, List.getElem?_append_left (h a (by simp))]
      exact ih _ fun i hi => h i (by simp [hi])
  rw [this _ _ fun i hi => List.mem_range.1 hi]
  simp

/-- Blocks after those there are: what was there before stays, free places are used first. -/
theorem setBlocks_eq (done bs : List β) (k : ℕ) : setBlocks (done.map some ++ List.replicate k none) done.length bs =
    (done ++ bs).map some ++ List.replicate (k - bs.length) none := by
  induction bs using List.reverseRecOn with
  | nil => simp [setBlocks]
  | append_singleton bs b ih =>
    rw [setBlocks_snoc, ih]
    have hl : done.length + bs.length = ((done ++ bs).map (some (α := β))).length := by simp
    rw [hl]
    unfold setBlock
    generalize hm : (done ++ bs).map (some (α := β)) = m
    have hm' : (done ++ (bs ++ [b])).map (some (α := β)) = m ++ [some b] := by rw [← hm, ← List.append_assoc, List.map_append]; rfl
    rw [hm']
    rcases Nat.lt_or_ge bs.length k with h | h
    · obtain ⟨j, hj⟩ : ∃ j, k - bs.length = j + 1 := ⟨k - bs.length - 1, by omega⟩
      rw [if_pos (by rw [List.length_append, List.length_replicate]; omega), hj, List.replicate_succ, List.set_append_right _ _ (le_refl _), Nat.sub_self,
        List.set_cons_zero, show k - (bs ++ [b]).length = j by simp; omega]
      simp
    · rw [show k - bs.length = 0 by omega, show k - (bs ++ [b]).length = 0 by simp; omega]
      simp

/-- **C115**, the whole system: one block for each object, the bodies first, then the points, the rods and the lines, in the order of the lists. -/
theorem C115_system (bodies points rods lines : List β) : systemVtk bodies points rods lines = (bodies ++ points ++ rods ++ lines).map some := by
  unfold systemVtk
  dsimp only
  have h₁ := setBlocks_eq [] bodies (rods.length + points.length + lines.length)
  rw [List.map_nil, List.nil_append, List.length_nil, List.nil_append] at h₁
  rw [h₁, setBlocks_eq bodies points, show bodies.length + points.length = (bodies ++ points).length by simp, setBlocks_eq (bodies ++ points) rods,
    show (bodies ++ points).length + rods.length = (bodies ++ points ++ rods).length by simp [add_assoc], setBlocks_eq (bodies ++ points ++ rods) lines]
  have : rods.length + points.length + lines.length - bodies.length - points.length - rods.length - lines.length = 0 := by omega
  rw [this]
  simp

end Blocks

/-! ## The functions of the API -/

open MD.Api MD.Text

/-- **C115**, codes: a function that saves returns success if and only if there is an object and VTK could write it, and then the file holds it; otherwise it
returns the code of the error. No exception leaves it. -/
theorem C115_save {H β : Type} (h : Option H) (obj : H → Option β) (writes : β → VtkErr) :
    (∀ x o, h = some x → obj x = some o → writes o = .noError → saveVTK h obj writes = .returns 0 (some o)) ∧
    (∀ x o, h = some x → obj x = some o → writes o ≠ .noError → ∃ c ∈ [(-2 : ℤ), -5, -6, -255], saveVTK h obj writes = .returns c none) ∧
    (h = none → saveVTK h obj writes = .returns (-6) none) := by
  refine ⟨?_, ?_, ?_⟩
  · rintro x o rfl ho hw
    simp only [saveVTK, checked, ho, hw]
    rfl
  · rintro x o rfl ho hw
    simp only [saveVTK, checked, ho]
    cases hc : writes o
    · exact absurd hc hw
    all_goals first
      | exact ⟨-2, by simp, rfl⟩
      | exact ⟨-6, by simp, rfl⟩
      | exact ⟨-5, by simp, rfl⟩
      | exact ⟨-255, by simp, rfl⟩
  · rintro rfl
    rfl

theorem splitGo_last (w : Str) (hw : w ≠ []) (hd : '.' ∉ w) : ∀ (s cur : Str), (splitGo '.' cur (s ++ '.' :: w)).getLast? = some w := by
  have h₁ : ∀ (v cur : Str), '.' ∉ v → cur ++ v ≠ [] → splitGo '.' cur v = [cur ++ v] := by
    intro v
    induction v with
    | nil => intro cur _ hc; simp only [List.append_nil] at hc; simp [splitGo, hc]
    | cons a v ih =>
      intro cur ha hc
      have h1 : a ≠ '.' := fun h => ha (by simp [h])
      rw [splitGo, if_neg h1, ih (cur ++ [a]) (fun h => ha (by simp [h])) (by simp)]
      simp
  have h₂ : ∀ cur : Str, (splitGo '.' cur ('.' :: w)).getLast? = some w := by
    intro cur
    have := h₁ w [] hd (by simpa using hw)
    rw [splitGo, if_pos rfl]
    split_ifs
    · rw [this]; rfl
    · rw [this]; rfl
  intro s
  induction s with
  | nil => exact h₂
  | cons a s ih =>
    intro cur
    rw [List.cons_append, splitGo]
    split_ifs
    · exact ih []
    · rw [List.getLast?_cons, ih []]; rfl
    · exact ih _

/-- **C115**, the shape of a body: a name that ends in `.vtp` or `.stl`, in any case, is read as such; the shape is replaced if VTK could read the file, and
stays if not. Names with another ending are refused. -/
theorem C115_shape {S : Type} (old : S) (base ext : Str) (he : ext ≠ []) (hd : '.' ∉ ext) (vtp stl : Str → VtkErr × S) :
    useBodyVTK (some old) (base ++ '.' :: ext) vtp stl =
      (let file := base ++ '.' :: ext
       if lower ext = "vtp".toList then (if (vtp file).1 = .noError then .returns 0 (some (vtp file).2) else .returns (vtkError (vtp file).1) (some old))
       else if lower ext = "stl".toList then
        (if (stl file).1 = .noError then .returns 0 (some (stl file).2) else .returns (vtkError (stl file).1) (some old))
       else .returns (-1) (some old)) ∧
    ∀ e, vtkError e = 0 ↔ e = .noError := by
  have hz : ∀ e, vtkError e = 0 ↔ e = .noError := by intro e; cases e <;> simp [vtkError]
  refine ⟨?_, hz⟩
  simp only [useBodyVTK, checked, split, splitGo_last ext he hd base [], hz]

/-- **C115**: a file that is not there is reported as one that cannot be written; and with a name made of dots only, or of nothing, the behaviour is undefined. -/
theorem C115_shape_false {S : Type} (old : S) (vtp stl : Str → VtkErr × S) :
    (∀ base, (stl (base ++ ".stl".toList)).1 = .fileNotFound → useBodyVTK (some old) (base ++ ".stl".toList) vtp stl = .returns (-2) (some old)) ∧
    ∀ n, useBodyVTK (some old) (List.replicate n '.') vtp stl = .undefined := by
  constructor
  · intro base h
    have := (C115_shape old base "stl".toList (by decide) (by decide) vtp stl).1
    have e : base ++ '.' :: "stl".toList = base ++ ".stl".toList := rfl
    rw [e] at this
    rw [this]
    dsimp only
    rw [if_neg (by decide), if_pos (by decide), h, if_neg (by decide)]
    rfl
  · intro n
    have : split '.' (List.replicate n '.') = [] := by
      unfold split
      induction n with
      | zero => rfl
      | succ n ih => rw [List.replicate_succ, splitGo, if_pos rfl, if_pos rfl, ih]
    simp only [useBodyVTK, checked, this]
    rfl

/-! ## Examples -/

/-- A line of two segments. -/
def short : LineArrays ℚ where
  N := 2
  r := [![0, 0, -10], ![5, 0, -10], ![9, 0, -7]]
  rd := [0, ![1, 0, 0], ![2, 0, 0]]
  Kurv := [0, 1 / 10, 0]
  M := [1, 1, 1]
  Fnet := [![1, 2, 3], 0, ![-1, -2, -3]]
  Dq := [0, ![1, 0, 0], 0]
  Dp := [0, ![0, 0, 1], 0]
  U := [0, 0, 0]
  lstr := [5, 5]
  ldstr := [0, 0]
  V := [1, 1]
  T := [![10, 0, 0], ![8, 0, 6]]
  F := [1, 1, 1]

theorem short_allocated : short.Allocated := by constructor <;> rfl

example : ∃ p, lineVtk id short = some p ∧ p.points = [[0, 0, -10], [5, 0, -10], [9, 0, -7]] ∧ p.lines = [[0, 1], [1, 2]] ∧
    table p.pointData "Drag" = some [[0, 0, 0], [1, 0, 1], [0, 0, 0]] := by
  obtain ⟨p, h, h₁, h₂, h₃, h₄⟩ := C115_line id short_allocated (by decide)
  refine ⟨p, h, ?_, ?_, ?_⟩
  · rw [h₁]; decide +kernel
  · rw [h₃]; decide +kernel
  · rw [h₄.2.2.2.2.1]; decide +kernel

example : rodVtk id (⟨0, [![1, 2, 3]], [0], [0]⟩ : RodArrays ℚ) = some ⟨[[1, 2, 3]], [[0]], [], [⟨"rd", 3, [[0, 0, 0]]⟩, ⟨"Fnet", 3, [[0, 0, 0]]⟩], []⟩ := by
  decide +kernel

/-- Half a turn about the third axis: the first axis of the body is shown the other way round. -/
example : turned ⟨0, 0, 0, 1⟩ ![1, 0, 0] = ![-1, 0, 0] := by
  rw [turned_eq, orMat_mul (by simp [Quat.normSq])]
  ext i
  fin_cases i <;> simp [Quat.normSq, Matrix.mulVec, dotProduct, Fin.sum_univ_three]

example : systemVtk ["b1", "b2"] ["p"] [] ["l1", "l2"] = [some "b1", some "b2", some "p", some "l1", some "l2"] := by decide

example : useBodyVTK (some 0) "hull.v2.STL".toList (fun _ => (.noError, 1)) (fun _ => (.noError, 2)) = .returns 0 (some 2) := by decide

end MD.Vtk
