import Verif.Model.Body
import Verif.Model.Time
import Verif.Lemmas.Line

/-!
# C99: the horizontal axes can be chosen freely
-/

set_option linter.unusedSimpArgs false

namespace MD.Frame

open Matrix MD.Mat MD.Mooring

/-! ## Specification -/

/-- A turn about the vertical, or a reflection in a vertical plane. -/
structure Turn where
  Q : M3 ℝ
  orth : Qᵀ * Q = 1
  up : Q *ᵥ ![0, 0, 1] = ![0, 0, 1]

variable (o : Turn) (d : V)

/-- The same line seen from the other axes, `d` being a horizontal shift of the origin. -/
def line (L : Line) : Line :=
  { L with
    r := fun i => o.Q *ᵥ L.r i + d
    rd := fun i => o.Q *ᵥ L.rd i
    qA := o.Q *ᵥ L.qA
    qB := o.Q *ᵥ L.qB }

/-- The same sea, and the same bottom. -/
structure SameSea (e e' : Env) : Prop where
  rho_w : e'.rho_w = e.rho_w
  g : e'.g = e.g
  kb : e'.kb = e.kb
  cb : e'.cb = e.cb
  frictionCoefficient : e'.frictionCoefficient = e.frictionCoefficient
  fricDamp : e'.fricDamp = e.fricDamp
  statDynFricScale : e'.statDynFricScale = e.statDynFricScale
  waterDepth : ∀ x : V, e'.waterDepth ((o.Q *ᵥ x + d) 0) ((o.Q *ᵥ x + d) 1) = e.waterDepth (x 0) (x 1)
  zeta : ∀ i, e'.zeta i = e.zeta i
  U : ∀ i, e'.U i = o.Q *ᵥ e.U i
  Ud : ∀ i, e'.Ud i = o.Q *ᵥ e.Ud i
  pdyn : ∀ i, e'.pdyn i = e.pdyn i

/-! ## Vectors -/

theorem orth' : o.Q * o.Qᵀ = 1 := by
  rw [mul_eq_one_comm]
  exact o.orth

theorem dot (a b : V) : (o.Q *ᵥ a) ⬝ᵥ (o.Q *ᵥ b) = a ⬝ᵥ b := by
  rw [dotProduct_mulVec, vecMul_mulVec, o.orth, vecMul_one]

theorem ez_dot (v : V) : v 2 = ![0, 0, 1] ⬝ᵥ v := by
  simp [dotProduct, Fin.sum_univ_three]

theorem z (v : V) : (o.Q *ᵥ v) 2 = v 2 := by
  have h := dot o ![0, 0, 1] v
  rw [o.up, ← ez_dot, ← ez_dot] at h
  exact h

theorem det_sq : o.Q.det * o.Q.det = 1 := by
  have := congrArg Matrix.det o.orth
  simpa using this

theorem cross (a b : V) : (o.Q *ᵥ a) ⨯₃ (o.Q *ᵥ b) = o.Q.det • o.Q *ᵥ (a ⨯₃ b) := by
  have key : o.Qᵀ *ᵥ ((o.Q *ᵥ a) ⨯₃ (o.Q *ᵥ b)) = o.Q.det • (a ⨯₃ b) := by
    ext i
    fin_cases i <;>
      simp [cross_apply, mulVec, dotProduct, Fin.sum_univ_three, det_fin_three, Matrix.transpose_apply] <;>
      ring
  have := congrArg (o.Q *ᵥ ·) key
  simpa [mulVec_mulVec, orth' o, mulVec_smul] using this

theorem norm_turn (a : V) : Mooring.norm (o.Q *ᵥ a) = Mooring.norm a := by
  unfold Mooring.norm
  rw [dot]

theorem norm_sign (a : V) : Mooring.norm (o.Q.det • a) = Mooring.norm a := by
  unfold Mooring.norm
  rw [smul_dotProduct, dotProduct_smul, smul_eq_mul, smul_eq_mul, ← mul_assoc, det_sq, one_mul]

theorem unit (a b : V) :
    unitvector (o.Q *ᵥ a + d) (o.Q *ᵥ b + d) = (o.Q *ᵥ (unitvector a b).1, (unitvector a b).2) := by
  have e : o.Q *ᵥ b + d - (o.Q *ᵥ a + d) = o.Q *ᵥ (b - a) := by rw [mulVec_sub]; abel
  unfold unitvector
  dsimp only
  rw [e, norm_turn]
  by_cases h : EqualRealNos (Mooring.norm (b - a)) 0
  · rw [if_pos h, if_pos h]
  · rw [if_neg h, if_neg h, mulVec_smul]

theorem unit_length (a b : V) :
    (unitvector (o.Q *ᵥ a + d) (o.Q *ᵥ b + d)).2 = (unitvector a b).2 := by rw [unit]

theorem normalize_turn (a : V) : Mooring.normalize (o.Q *ᵥ a) = o.Q *ᵥ Mooring.normalize a := by
  unfold Mooring.normalize
  rw [dot, norm_turn]
  split_ifs <;> simp [mulVec_smul]

theorem normalize_sign (a : V) : Mooring.normalize (o.Q.det • a) = o.Q.det • Mooring.normalize a := by
  unfold Mooring.normalize
  rw [norm_sign, smul_dotProduct, dotProduct_smul, smul_eq_mul, smul_eq_mul, ← mul_assoc, det_sq, one_mul]
  split_ifs
  · rw [smul_comm]
  · rfl

theorem scale_turn (a : V) (c : ℝ) : scalevector (o.Q *ᵥ a) c = o.Q *ᵥ scalevector a c := by
  unfold scalevector
  dsimp only
  rw [dot]
  by_cases h : EqualRealNos (a ⬝ᵥ a) 0
  · rw [if_pos h, if_pos h]
  · rw [if_neg h, if_neg h, mulVec_smul]

theorem curvature_turn (c : ℝ) (a b : V) :
    getCurvature c (o.Q *ᵥ a) (o.Q *ᵥ b) = getCurvature c a b := by
  unfold getCurvature
  rw [dot]

/-! ## Lines -/

section
variable (L : Line)

theorem line_qs (i : ℕ) : qs (line o d L) i = o.Q *ᵥ qs L i := by
  unfold qs
  exact congrArg Prod.fst (unit o d _ _)

theorem line_lstr (i : ℕ) : lstr (line o d L) i = lstr L i := by
  unfold lstr
  exact unit_length o d _ _

theorem line_ldstr (i : ℕ) : ldstr (line o d L) i = ldstr L i := by
  unfold ldstr
  rw [line_qs]
  show _ ⬝ᵥ (o.Q *ᵥ L.rd (i + 1) - o.Q *ᵥ L.rd i) = _
  rw [← mulVec_sub, dot]

theorem line_q (i : ℕ) : q (line o d L) i = o.Q *ᵥ q L i := by
  have hA : ((line o d L).endTypeA = .PINNED ∨ ¬ isEI (line o d L)) ↔ (L.endTypeA = .PINNED ∨ ¬ isEI L) :=
    Iff.rfl
  have hB : ((line o d L).endTypeB = .PINNED ∨ ¬ isEI (line o d L)) ↔ (L.endTypeB = .PINNED ∨ ¬ isEI L) :=
    Iff.rfl
  have hN : (line o d L).N = L.N := rfl
  unfold q
  by_cases h0 : i = 0
  · by_cases h1 : L.endTypeA = .PINNED ∨ ¬ isEI L
    · rw [if_pos h0, if_pos h0, if_pos (hA.2 h1), if_pos h1]
      exact congrArg Prod.fst (unit o d _ _)
    · rw [if_pos h0, if_pos h0, if_neg (mt hA.1 h1), if_neg h1]
      rfl
  rw [if_neg h0, if_neg h0]
  by_cases h2 : i = L.N
  · by_cases h1 : L.endTypeB = .PINNED ∨ ¬ isEI L
    · rw [if_pos (hN ▸ h2), if_pos h2, if_pos (hB.2 h1), if_pos h1]
      exact congrArg Prod.fst (unit o d _ _)
    · rw [if_pos (hN ▸ h2), if_pos h2, if_neg (mt hB.1 h1), if_neg h1]
      rfl
  · rw [if_neg (hN ▸ h2), if_neg h2]
    exact congrArg Prod.fst (unit o d _ _)

theorem line_Kurv (i : ℕ) : Kurv (line o d L) i = Kurv L i := by
  unfold Kurv
  simp only [line_lstr, line_qs, line_q, curvature_turn]
  rfl

open Classical in
theorem pvec_eq (i : ℕ) : pvec L i = if EqualRealNos (Kurv L i) 0 then 0 else
    let p := if i = 0 then q L 0 ⨯₃ qs L 0
      else if i = L.N then qs L (i - 1) ⨯₃ q L L.N
      else qs L (i - 1) ⨯₃ qs L i
    if EqualRealNos (Mooring.norm p) 0 then p else (1 / Mooring.norm p) • p := rfl

open Classical in
theorem line_pvec (i : ℕ) : pvec (line o d L) i = o.Q.det • o.Q *ᵥ pvec L i := by
  have e : (if i = 0 then q (line o d L) 0 ⨯₃ qs (line o d L) 0
      else if i = (line o d L).N then qs (line o d L) (i - 1) ⨯₃ q (line o d L) (line o d L).N
      else qs (line o d L) (i - 1) ⨯₃ qs (line o d L) i) =
      o.Q.det • o.Q *ᵥ (if i = 0 then q L 0 ⨯₃ qs L 0
      else if i = L.N then qs L (i - 1) ⨯₃ q L L.N
      else qs L (i - 1) ⨯₃ qs L i) := by
    have hN : (line o d L).N = L.N := rfl
    simp only [hN, line_qs, line_q, cross]
    split_ifs <;> rfl
  rw [pvec_eq, pvec_eq]
  dsimp only
  rw [e]
  generalize (if i = 0 then q L 0 ⨯₃ qs L 0
      else if i = L.N then qs L (i - 1) ⨯₃ q L L.N
      else qs L (i - 1) ⨯₃ qs L i) = p
  rw [line_Kurv, norm_sign, norm_turn]
  by_cases h : EqualRealNos (Kurv L i) 0
  · rw [if_pos h, if_pos h, mulVec_zero, smul_zero]
  rw [if_neg h, if_neg h]
  by_cases h : EqualRealNos (Mooring.norm p) 0
  · rw [if_pos h, if_pos h]
  · rw [if_neg h, if_neg h, mulVec_smul, smul_comm]

theorem qxp (a b : V) : (o.Q *ᵥ a) ⨯₃ (o.Q.det • o.Q *ᵥ b) = o.Q *ᵥ (a ⨯₃ b) := by
  rw [map_smul, cross, smul_smul, det_sq, one_smul]

theorem sub_turn (hd : d 2 = 0) (D : ℝ) (a b : V) (h : ℝ) :
    calcSubSeg D (o.Q *ᵥ a + d) (o.Q *ᵥ b + d) h = calcSubSeg D a b h := by
  have za : ∀ x : V, (o.Q *ᵥ x + d) 2 = x 2 := fun x => by simp [Pi.add_apply, z, hd]
  unfold calcSubSeg
  simp only [za]
  have key : ∀ lo up : V,
      scalevector (Mooring.normalize ((o.Q *ᵥ up + d - ![0, 0, h] - (o.Q *ᵥ lo + d - ![0, 0, h])) ⨯₃
        ((![0, 0, 1] : V) ⨯₃ (o.Q *ᵥ up + d - ![0, 0, h] - (o.Q *ᵥ lo + d - ![0, 0, h]))))) (D / 2) =
      o.Q *ᵥ scalevector (Mooring.normalize ((up - ![0, 0, h] - (lo - ![0, 0, h])) ⨯₃
        ((![0, 0, 1] : V) ⨯₃ (up - ![0, 0, h] - (lo - ![0, 0, h]))))) (D / 2) := by
    intro lo up
    have e1 : o.Q *ᵥ up + d - ![0, 0, h] - (o.Q *ᵥ lo + d - ![0, 0, h]) =
        o.Q *ᵥ (up - ![0, 0, h] - (lo - ![0, 0, h])) := by
      simp only [sub_sub_sub_cancel_right, add_sub_add_right_eq_sub, mulVec_sub]
    rw [e1]
    generalize up - ![0, 0, h] - (lo - ![0, 0, h]) = x
    have e2 : (![0, 0, 1] : V) ⨯₃ (o.Q *ᵥ x) = o.Q.det • o.Q *ᵥ ((![0, 0, 1] : V) ⨯₃ x) := by
      rw [← cross, o.up]
    rw [e2, qxp, normalize_turn, scale_turn]
  by_cases h1 : a 2 - h < 0
  · simp only [h1, if_true, key, Pi.sub_apply, Pi.add_apply, z, hd, add_zero]
  · simp only [h1, if_false, key, Pi.sub_apply, Pi.add_apply, z, hd, add_zero]

variable {e e' : Env}

/-- The hypotheses of the theorems on lines and points. -/
structure Seen (o : Turn) (d : V) (e e' : Env) : Prop where
  flat : d 2 = 0
  sea : SameSea o d e e'

variable (h : Seen o d e e')

include h

theorem line_F (i : ℕ) : F (line o d L) e' i = F L e i := by
  unfold F
  rw [h.sea.zeta, h.sea.zeta]
  exact sub_turn o d h.flat _ _ _ _

theorem line_FV (i : ℕ) : adjacent (line o d L).N (fun j => F (line o d L) e' j * (line o d L).V j) i =
    adjacent L.N (fun j => F L e j * L.V j) i := by
  simp only [line_F o d L h]
  rfl

theorem line_Fl (i : ℕ) : adjacent (line o d L).N (fun j => F (line o d L) e' j * (line o d L).l j) i =
    adjacent L.N (fun j => F L e j * L.l j) i := by
  simp only [line_F o d L h]
  rfl

omit h in
theorem outer (a b : V) : vecMulVec (o.Q *ᵥ a) (o.Q *ᵥ b) = o.Q * vecMulVec a b * o.Qᵀ := by
  rw [mul_vecMulVec, vecMulVec_mul, vecMul_transpose]

theorem line_M (i : ℕ) : M (line o d L) e' i = o.Q * M L e i * o.Qᵀ := by
  have hv : v (line o d L) e' i = v L e i := by
    unfold v
    rw [line_FV o d L h]
  unfold M
  rw [line_q, outer o, hv, h.sea.rho_w]
  have h1 : (1 : M3 ℝ) = o.Q * 1 * o.Qᵀ := by rw [mul_one, orth']
  show m L i • 1 + _ • (L.Can • (1 - _) + L.Cat • _) = _
  rw [h1]
  simp only [mul_add, add_mul, mul_sub, sub_mul, mul_smul_comm, smul_mul_assoc, mul_one, orth', one_mul]

omit h

theorem line_T (i : ℕ) : T (line o d L) i = o.Q *ᵥ T L i := by
  unfold T
  rw [line_lstr, line_qs]
  have e1 : getNonlinearE (line o d L) = getNonlinearE L := rfl
  have e2 : (line o d L).l = L.l := rfl
  have e3 : (line o d L).A = L.A := rfl
  rw [e1, e2, e3]
  dsimp only
  split_ifs <;> simp [mulVec_smul]

theorem line_Td (i : ℕ) : Td (line o d L) i = (Td L i).map (o.Q *ᵥ ·) := by
  unfold Td
  rw [line_ldstr, line_qs]
  have e1 : getNonlinearC (line o d L) = getNonlinearC L := rfl
  have e2 : (line o d L).l = L.l := rfl
  have e3 : (line o d L).A = L.A := rfl
  rw [e1, e2, e3]
  cases getNonlinearC L (ldstr L i) (L.l i) with
  | none => rfl
  | some c => simp [mulVec_smul]

theorem line_axial (i : ℕ) : Mooring.axial (line o d L) i = (Mooring.axial L i).map (o.Q *ᵥ ·) := by
  unfold Mooring.axial
  have hN : (line o d L).N = L.N := rfl
  rw [hN]
  simp only [line_T, line_Td]
  split_ifs
  · cases Td L i <;> simp [mulVec_add]
  · cases Td L (i - 1) <;> simp [mulVec_sub, mulVec_neg]
  · cases Td L i <;> cases Td L (i - 1) <;> simp [mulVec_sub, mulVec_add]

theorem turn_addAt (a : ℕ → V) (k : ℕ) (x : V) :
    addAt (fun j => o.Q *ᵥ a j) k (o.Q *ᵥ x) = fun j => o.Q *ᵥ addAt a k x j := by
  funext j
  unfold addAt
  split_ifs
  · rw [mulVec_add]
  · rfl

theorem line_bendNode (a : ℕ → V) (i : ℕ) :
    bendNode (line o d L) (fun j => o.Q *ᵥ a j) i = fun j => o.Q *ᵥ bendNode L a i j := by
  have e1 : getNonlinearEI (line o d L) = getNonlinearEI L := rfl
  have e2 : (line o d L).endTypeA = L.endTypeA := rfl
  have e3 : (line o d L).endTypeB = L.endTypeB := rfl
  have e4 : (line o d L).N = L.N := rfl
  unfold bendNode
  dsimp only
  rw [e1, e2, e3, e4, line_Kurv]
  by_cases h0 : EqualRealNos (Kurv L i) 0
  · rw [if_pos h0, if_pos h0]
  rw [if_neg h0, if_neg h0]
  simp only [line_lstr, line_qs, line_pvec, qxp]
  simp only [← mulVec_smul, ← mulVec_neg, ← mulVec_sub, turn_addAt]
  split_ifs <;> rfl

open Classical in
theorem Bs_eq : Bs L =
    if isEI L then (List.range (L.N + 1)).foldl (bendNode L) (fun _ => 0) else fun _ => 0 := rfl

theorem line_Bs (i : ℕ) : Bs (line o d L) i = o.Q *ᵥ Bs L i := by
  have key : ∀ (l : List ℕ) (a : ℕ → V), l.foldl (bendNode (line o d L)) (fun j => o.Q *ᵥ a j) =
      fun j => o.Q *ᵥ l.foldl (bendNode L) a j := by
    intro l
    induction l with
    | nil => intro a; rfl
    | cons x l ih =>
      intro a
      rw [List.foldl_cons, line_bendNode, ih]
      rfl
  have hi : isEI (line o d L) ↔ isEI L := Iff.rfl
  rw [Bs_eq, Bs_eq]
  by_cases h0 : isEI L
  · rw [if_pos (hi.2 h0), if_pos h0]
    have := key (List.range (L.N + 1)) (fun _ => 0)
    simp only [mulVec_zero] at this
    exact congrFun this i
  · rw [if_neg (mt hi.1 h0), if_neg h0, mulVec_zero]

include h

open Classical in
omit h in
theorem Pb_eq (i : ℕ) : Pb L e i = if L.isPb ∧ ¬ EqualRealNos (Kurv L i) 0 then
    (1 / 2 * L.A * adjacent L.N L.l i * (L.pin i - (e.rho_w * e.g * max 0 (e.zeta i - L.r i 2) + e.pdyn i))
      * Kurv L i) • (q L i ⨯₃ pvec L i) else 0 := rfl

theorem line_r2 (i : ℕ) : (line o d L).r i 2 = L.r i 2 := by
  show (o.Q *ᵥ L.r i + d) 2 = _
  rw [Pi.add_apply, z, h.flat, add_zero]

theorem line_Pb (i : ℕ) : Pb (line o d L) e' i = o.Q *ᵥ Pb L e i := by
  rw [Pb_eq, Pb_eq, line_r2 o d L h, line_Kurv, line_q, line_pvec, qxp, h.sea.rho_w, h.sea.g, h.sea.zeta,
    h.sea.pdyn]
  have e1 : (line o d L).isPb = L.isPb := rfl
  have e2 : (line o d L).A = L.A := rfl
  have e3 : (line o d L).l = L.l := rfl
  have e4 : (line o d L).N = L.N := rfl
  have e5 : (line o d L).pin = L.pin := rfl
  rw [e1, e2, e3, e4, e5]
  by_cases h0 : L.isPb ∧ ¬ EqualRealNos (Kurv L i) 0
  · rw [if_pos h0, if_pos h0, mulVec_smul]
  · rw [if_neg h0, if_neg h0, mulVec_zero]

omit h in
theorem vert (w : ℝ) : o.Q *ᵥ ![0, 0, w] = ![0, 0, w] := by
  have e : (![0, 0, w] : V) = w • ![0, 0, 1] := by simp
  rw [e, mulVec_smul, o.up]

theorem line_W (i : ℕ) : W (line o d L) e' i = o.Q *ᵥ W L e i := by
  unfold W
  rw [vert, h.sea.rho_w, h.sea.g]
  simp only [line_F o d L h]
  rfl

theorem line_vrel (i : ℕ) : vrel (line o d L) e' i = o.Q *ᵥ vrel L e i := by
  unfold vrel
  rw [h.sea.U, mulVec_sub]
  rfl

theorem line_vq (i : ℕ) : vq (line o d L) e' i = o.Q *ᵥ vq L e i := by
  unfold vq
  rw [line_vrel o d L h, line_q, dot, mulVec_smul]

theorem line_vp (i : ℕ) : vp (line o d L) e' i = o.Q *ᵥ vp L e i := by
  unfold vp
  rw [line_vrel o d L h, line_vq o d L h, mulVec_sub]

theorem line_aq (i : ℕ) : aq (line o d L) e' i = o.Q *ᵥ aq L e i := by
  unfold aq
  rw [h.sea.Ud, line_q, dot, mulVec_smul]

theorem line_ap (i : ℕ) : ap (line o d L) e' i = o.Q *ᵥ ap L e i := by
  unfold ap
  rw [h.sea.Ud, line_aq o d L h, mulVec_sub]

theorem line_drag (i : ℕ) : Dp (line o d L) e' i = o.Q *ᵥ Dp L e i ∧
    Dq (line o d L) e' i = o.Q *ᵥ Dq L e i ∧ Ap (line o d L) e' i = o.Q *ᵥ Ap L e i ∧
    Aq (line o d L) e' i = o.Q *ᵥ Aq L e i := by
  unfold Dp Dq Ap Aq
  rw [line_vp o d L h, line_vq o d L h, line_aq o d L h, line_ap o d L h, norm_turn, norm_turn,
    line_Fl o d L h, line_FV o d L h, h.sea.rho_w]
  simp only [mulVec_smul]
  exact ⟨rfl, rfl, rfl, rfl⟩

omit h in
theorem flat_sq (x : V) : (o.Q *ᵥ x) 0 * (o.Q *ᵥ x) 0 + (o.Q *ᵥ x) 1 * (o.Q *ᵥ x) 1 =
    x 0 * x 0 + x 1 * x 1 := by
  have h1 := dot o x x
  simp only [dotProduct, Fin.sum_univ_three] at h1
  rw [z] at h1
  linarith

omit h in
theorem flat_turn (a b : ℝ) (x : V) : o.Q *ᵥ ![a * x 0, a * x 1, b] =
    ![a * (o.Q *ᵥ x) 0, a * (o.Q *ᵥ x) 1, b] := by
  have e1 : ∀ y : V, (![a * y 0, a * y 1, b] : V) = a • y + (b - a * y 2) • ![0, 0, 1] := by
    intro y
    ext i
    fin_cases i <;> simp
  rw [e1, e1, mulVec_add, mulVec_smul, mulVec_smul, o.up, z]

theorem line_B (i : ℕ) : B (line o d L) e' i = o.Q *ᵥ B L e i := by
  unfold B
  dsimp only
  rw [line_r2 o d L h]
  have hw : e'.waterDepth ((line o d L).r i 0) ((line o d L).r i 1) = e.waterDepth (L.r i 0) (L.r i 1) :=
    h.sea.waterDepth (L.r i)
  have e0 : (line o d L).rd i = o.Q *ᵥ L.rd i := rfl
  have e2 : (line o d L).d = L.d := rfl
  have e3 : (line o d L).l = L.l := rfl
  have e4 : (line o d L).N = L.N := rfl
  rw [hw, e0, e2, e3, e4, flat_sq, z, h.sea.kb, h.sea.cb, h.sea.frictionCoefficient, h.sea.fricDamp,
    h.sea.statDynFricScale]
  by_cases h1 : L.r i 2 < e.waterDepth (L.r i 0) (L.r i 1)
  swap
  · rw [if_neg h1, if_neg h1, mulVec_zero]
  rw [if_pos h1, if_pos h1]
  by_cases h2 : Real.sqrt (L.rd i 0 * L.rd i 0 + L.rd i 1 * L.rd i 1) = 0
  · rw [if_pos h2, if_pos h2, vert]
  rw [if_neg h2, if_neg h2]
  generalize (if _ > (_ : ℝ) then (_ : ℝ) else _) = f
  have e5 : ∀ x : ℝ, -f * x / Real.sqrt (L.rd i 0 * L.rd i 0 + L.rd i 1 * L.rd i 1) =
      (-f / Real.sqrt (L.rd i 0 * L.rd i 0 + L.rd i 1 * L.rd i 1)) * x := fun x => by ring
  simp only [e5]
  rw [flat_turn]

/-- C99, lines: seen from other horizontal axes the forces on the nodes of a line are turned and their
masses too. -/
theorem C99_line (i : ℕ) : Fnet (line o d L) e' i = (Fnet L e i).map (o.Q *ᵥ ·) ∧
    M (line o d L) e' i = o.Q * M L e i * o.Qᵀ := by
  refine ⟨?_, line_M o d L h i⟩
  obtain ⟨h1, h2, h3, h4⟩ := line_drag o d L h i
  unfold Fnet
  rw [line_axial, line_W o d L h, h1, h2, h3, h4, line_B o d L h, line_Bs, line_Pb o d L h]
  cases Mooring.axial L i <;> simp [mulVec_add]

end

end MD.Frame
