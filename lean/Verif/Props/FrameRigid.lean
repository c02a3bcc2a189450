import Verif.Props.Frame
import Verif.Props.Rotation
import Verif.Lemmas.Rod

/-!
# C99: the horizontal axes can be chosen freely (points, rods and bodies)
-/

set_option linter.unusedSimpArgs false

namespace MD.Frame

open Matrix MD.Mat MD.Mooring MD.Rods MD.Bodies MD.Rot

variable (o : Turn) (d : V)

/-! ## Specification -/

/-- What the end of a line gives to the object it is attached to. -/
def stuff (a : V × V × M3 ℝ) : V × V × M3 ℝ :=
  (o.Q *ᵥ a.1, o.Q.det • o.Q *ᵥ a.2.1, o.Q * a.2.2 * o.Qᵀ)

/-- The same point. -/
def point (p : Point) : Point :=
  { p with
    pointF := o.Q *ᵥ p.pointF
    r := o.Q *ᵥ p.r + d
    rd := o.Q *ᵥ p.rd
    U := o.Q *ᵥ p.U
    attached := p.attached.map (stuff o) }

/-- The same rod. -/
def rod (R : Rod) : Rod :=
  { R with
    r0 := o.Q *ᵥ R.r0 + d
    q := o.Q *ᵥ R.q
    vA := o.Q *ᵥ R.vA
    w := o.Q *ᵥ R.w
    attachedA := R.attachedA.map (stuff o)
    attachedB := R.attachedB.map (stuff o) }

/-- The same body. -/
def body (b : Body) : Body :=
  { b with
    pos := o.Q *ᵥ b.pos + d
    OrMat := o.Q * b.OrMat
    v := o.Q *ᵥ b.v
    w := o.Q *ᵥ b.w
    U := o.Q *ᵥ b.U }

/-- A mass matrix of forces and moments. -/
def mass6 (M : M6 ℝ) : M6 ℝ := fromBlocks o.Q 0 0 o.Q * M * (fromBlocks o.Q 0 0 o.Q)ᵀ

/-- Force, moment and mass matrix. -/
def load (x : V × V × M6 ℝ) : V × V × M6 ℝ := (o.Q *ᵥ x.1, o.Q *ᵥ x.2.1, mass6 o x.2.2)

/-! ## Points -/

theorem normalized_turn (a : V) : normalized (o.Q *ᵥ a) = o.Q *ᵥ normalized a := by
  unfold normalized
  rw [dot, norm_turn]
  split_ifs
  · rw [mulVec_smul]
  · rfl

theorem turn_one : o.Q * (1 : M3 ℝ) * o.Qᵀ = 1 := by rw [mul_one, orth']

theorem loop_turn (l : List (V × V × M3 ℝ)) (a : V × M3 ℝ) :
    pointLoop (l.map (stuff o)) (o.Q *ᵥ a.1, o.Q * a.2 * o.Qᵀ) =
      (o.Q *ᵥ (pointLoop l a).1, o.Q * (pointLoop l a).2 * o.Qᵀ) := by
  induction l generalizing a with
  | nil => rfl
  | cons x l ih =>
    rw [List.map_cons, pointLoop, pointLoop, ← ih]
    simp only [stuff, mulVec_add, mul_add, add_mul]

/-- C99, points: force and mass matrix. -/
theorem C99_point (p : Point) (rho_w g : ℝ) :
    (point o d p).doRHS rho_w g =
      (o.Q *ᵥ (p.doRHS rho_w g).1, o.Q * (p.doRHS rho_w g).2 * o.Qᵀ) := by
  unfold Point.doRHS
  have e1 : (point o d p).pointF + ![0, 0, g * ((point o d p).pointV * rho_w - (point o d p).pointM)] =
      o.Q *ᵥ (p.pointF + ![0, 0, g * (p.pointV * rho_w - p.pointM)]) := by
    rw [mulVec_add, vert]
    rfl
  have e2 : (point o d p).pointM • (1 : M3 ℝ) = o.Q * (p.pointM • (1 : M3 ℝ)) * o.Qᵀ := by
    rw [mul_smul_comm, smul_mul_assoc, turn_one]
    rfl
  have e3 : (point o d p).U - (point o d p).rd = o.Q *ᵥ (p.U - p.rd) := by
    rw [mulVec_sub]
    rfl
  have e4 : (point o d p).attached = p.attached.map (stuff o) := rfl
  dsimp only
  rw [e1, e2, e3, e4, loop_turn o p.attached (p.pointF + ![0, 0, g * (p.pointV * rho_w - p.pointM)],
    p.pointM • (1 : M3 ℝ)), normalized_turn, dot]
  simp only [mulVec_add, mulVec_smul, mul_add, add_mul, mul_smul_comm, smul_mul_assoc, turn_one]
  rfl

/-- C99, points: the acceleration of a free point. -/
theorem C99_point_acc (p : Point) (rho_w g : ℝ) (a : V) (h : p.acc rho_w g a) :
    (point o d p).acc rho_w g (o.Q *ᵥ a) := by
  unfold Point.acc at h ⊢
  rw [C99_point, ← h]
  simp only [mulVec_mulVec]
  rw [mul_assoc, o.orth, mul_one]

/-! ## Matrices of six rows -/

section
variable (hp : o.Q.det = 1)
include hp

theorem cross1 (a b : V) : (o.Q *ᵥ a) ⨯₃ (o.Q *ᵥ b) = o.Q *ᵥ (a ⨯₃ b) := by
  rw [cross, hp, one_smul]

theorem getH_turn (r : V) : getH (o.Q *ᵥ r) = o.Q * getH r * o.Qᵀ := by
  have hH : ∀ c w : V, getH c *ᵥ w = w ⨯₃ c := by
    intro c w
    ext i
    fin_cases i <;> simp [getH, cross_apply, mulVec, dotProduct, Fin.sum_univ_three] <;> ring
  have key : getH (o.Q *ᵥ r) * o.Q = o.Q * getH r := by
    apply Matrix.ext_of_mulVec_single
    intro i
    rw [← mulVec_mulVec, ← mulVec_mulVec, hH, hH, cross1 o hp]
  rw [← key, mul_assoc, orth', mul_one]

omit hp in
theorem mass6_blocks (A B C D : M3 ℝ) : mass6 o (fromBlocks A B C D) =
    fromBlocks (o.Q * A * o.Qᵀ) (o.Q * B * o.Qᵀ) (o.Q * C * o.Qᵀ) (o.Q * D * o.Qᵀ) := by
  unfold mass6
  simp [fromBlocks_transpose, fromBlocks_multiply]

omit hp in
theorem mass6_add (A B : M6 ℝ) : mass6 o (A + B) = mass6 o A + mass6 o B := by
  unfold mass6
  rw [mul_add, add_mul]

omit hp in
theorem mass6_eq (M : M6 ℝ) : mass6 o M = fromBlocks (o.Q * M.toBlocks₁₁ * o.Qᵀ)
    (o.Q * M.toBlocks₁₂ * o.Qᵀ) (o.Q * M.toBlocks₂₁ * o.Qᵀ) (o.Q * M.toBlocks₂₂ * o.Qᵀ) := by
  rw [← mass6_blocks, fromBlocks_toBlocks]

omit hp in
theorem conj_mul (A B : M3 ℝ) : o.Q * A * o.Qᵀ * (o.Q * B * o.Qᵀ) = o.Q * (A * B) * o.Qᵀ := by
  calc o.Q * A * o.Qᵀ * (o.Q * B * o.Qᵀ) = o.Q * A * (o.Qᵀ * o.Q) * B * o.Qᵀ := by noncomm_ring
    _ = _ := by rw [o.orth]; noncomm_ring

omit hp in
theorem conj_transpose (A : M3 ℝ) : (o.Q * A * o.Qᵀ)ᵀ = o.Q * Aᵀ * o.Qᵀ := by
  simp [transpose_mul, mul_assoc]

theorem translate_turn (r : V) (M : M3 ℝ) :
    translateMass (o.Q *ᵥ r) (o.Q * M * o.Qᵀ) = mass6 o (translateMass r M) := by
  unfold translateMass
  dsimp only
  rw [getH_turn o hp, mass6_blocks]
  simp only [conj_transpose, conj_mul]

theorem translate6_turn (r : V) (M : M6 ℝ) :
    translateMass6 (o.Q *ᵥ r) (mass6 o M) = mass6 o (translateMass6 r M) := by
  unfold translateMass6
  dsimp only
  rw [getH_turn o hp, mass6_blocks, mass6_eq]
  simp only [toBlocks_fromBlocks₁₁, toBlocks_fromBlocks₁₂, toBlocks_fromBlocks₂₁, toBlocks_fromBlocks₂₂,
    conj_transpose, conj_mul, mul_add, add_mul, transpose_add]

omit hp in
theorem mass6_mulVec (M : M6 ℝ) (a b : V) :
    mass6 o M *ᵥ Sum.elim (o.Q *ᵥ a) (o.Q *ᵥ b) =
      Sum.elim (o.Q *ᵥ ((M *ᵥ Sum.elim a b) ∘ Sum.inl)) (o.Q *ᵥ ((M *ᵥ Sum.elim a b) ∘ Sum.inr)) := by
  have e1 : Sum.elim (o.Q *ᵥ a) (o.Q *ᵥ b) = fromBlocks o.Q 0 0 o.Q *ᵥ Sum.elim a b := by
    rw [fromBlocks_mulVec]
    simp
  rw [e1]
  unfold mass6
  have e2 : (fromBlocks o.Q 0 0 o.Q)ᵀ * fromBlocks o.Q 0 0 o.Q = (1 : M6 ℝ) := by
    simp [fromBlocks_transpose, fromBlocks_multiply, o.orth]
  rw [mulVec_mulVec, mul_assoc, e2, mul_one, ← mulVec_mulVec]
  rw [fromBlocks_mulVec]
  simp

omit hp in
/-- The equations of motion are the same. -/
theorem solve6 (M : M6 ℝ) (a b F Mo : V) (h : M *ᵥ Sum.elim a b = Sum.elim F Mo) :
    mass6 o M *ᵥ Sum.elim (o.Q *ᵥ a) (o.Q *ᵥ b) = Sum.elim (o.Q *ᵥ F) (o.Q *ᵥ Mo) := by
  rw [mass6_mulVec, h]
  rfl

/-- C99, points of bodies. -/
theorem C99_body_point (p : Point) (rho_w g : ℝ) (rBody w : V) :
    (point o d p).getNetForceAndMass rho_w g (o.Q *ᵥ rBody + d) (o.Q *ᵥ w) =
      load o (p.getNetForceAndMass rho_w g rBody w) := by
  unfold Point.getNetForceAndMass load
  dsimp only
  rw [C99_point]
  have e : (point o d p).r - (o.Q *ᵥ rBody + d) = o.Q *ᵥ (p.r - rBody) := by
    show o.Q *ᵥ p.r + d - _ = _
    rw [mulVec_sub]
    abel
  rw [e]
  simp only [cross1 o hp, translate_turn o hp, mulVec_add, mulVec_neg, mulVec_mulVec]
  rw [mul_assoc (o.Q * _), o.orth, mul_one]

/-! ## Rods -/

variable (R : Rod)

/-- The rod is vertical, or leans by more than the angle below which its heading is ignored. -/
def Leans (v : V) : Prop := (v 0 = 0 ∧ v 1 = 0) ∨ 1 / 10 ^ 6 ≤ Real.sqrt (v 0 * v 0 + v 1 * v 1)

/-- The direction of the angles. -/
noncomputable def dir (a : ℝ × ℝ) : V := ![Real.cos a.2 * Real.sin a.1, Real.sin a.2 * Real.sin a.1, Real.cos a.1]

omit hp in
theorem angles_dir {v : V} {a : ℝ × ℝ} (h : orientationAngles v = some a) (hl : Leans v) :
    Real.sqrt (v ⬝ᵥ v) • dir a = v ∧ Real.sqrt (v ⬝ᵥ v) * Real.cos a.1 = v 2 ∧
    Real.sqrt (v ⬝ᵥ v) * Real.sin a.1 = Real.sqrt (v 0 * v 0 + v 1 * v 1) ∧ 0 < Real.sqrt (v ⬝ᵥ v) := by
  unfold orientationAngles at h
  by_cases h0 : v ⬝ᵥ v < 1 / 10 ^ 12
  · rw [if_pos h0] at h
    cases h
  rw [if_neg h0] at h
  simp only [Option.some.injEq] at h
  subst h
  have hpos : 0 < Real.sqrt (v ⬝ᵥ v) := by
    apply Real.sqrt_pos.2
    have : (0 : ℝ) < 1 / 10 ^ 12 := by norm_num
    linarith
  set l := Real.sqrt (v 0 * v 0 + v 1 * v 1) with hl'
  have hl0 : 0 ≤ l := Real.sqrt_nonneg _
  have hsq : l ^ 2 = v 0 * v 0 + v 1 * v 1 :=
    Real.sq_sqrt (add_nonneg (mul_self_nonneg _) (mul_self_nonneg _))
  have hn : Real.sqrt (v 2 ^ 2 + l ^ 2) = Real.sqrt (v ⬝ᵥ v) := by
    congr 1
    rw [hsq]
    simp only [dotProduct, Fin.sum_univ_three]
    ring
  have hc := atan2_cos l (v 2)
  have hs := atan2_sin l (v 2)
  rw [hn] at hc hs
  have hb : Real.cos (if |l| < 1 / 10 ^ 6 then 0 else atan2 (v 1) (v 0)) * l = v 0 ∧
      Real.sin (if |l| < 1 / 10 ^ 6 then 0 else atan2 (v 1) (v 0)) * l = v 1 := by
    rcases hl with ⟨h0, h1⟩ | h6
    · have : l = 0 := by rw [hl', h0, h1]; simp
      rw [this, h0, h1]
      simp
    · rw [if_neg (by rw [abs_of_nonneg hl0]; exact not_lt.mpr h6)]
      have e : Real.sqrt (v 0 ^ 2 + v 1 ^ 2) = l := by rw [hl']; congr 1; ring
      have h1 := atan2_cos (v 1) (v 0)
      have h2 := atan2_sin (v 1) (v 0)
      rw [e] at h1 h2
      exact ⟨by rw [mul_comm]; exact h1, by rw [mul_comm]; exact h2⟩
  refine ⟨?_, hc, hs, hpos⟩
  generalize (if |l| < 1 / 10 ^ 6 then 0 else atan2 (v 1) (v 0)) = β at *
  generalize atan2 l (v 2) = φ at *
  ext i
  fin_cases i
  · show Real.sqrt (v ⬝ᵥ v) * (Real.cos β * Real.sin φ) = v 0
    linear_combination hb.1 + Real.cos β * hs
  · show Real.sqrt (v ⬝ᵥ v) * (Real.sin β * Real.sin φ) = v 1
    linear_combination hb.2 + Real.sin β * hs
  · exact hc

omit hp in
theorem leans_turn {v : V} (h : Leans v) : Leans (o.Q *ᵥ v) := by
  rcases h with ⟨h0, h1⟩ | h
  · left
    have e := flat_sq o v
    rw [h0, h1] at e
    constructor <;> nlinarith [mul_self_nonneg ((o.Q *ᵥ v) 0), mul_self_nonneg ((o.Q *ᵥ v) 1)]
  · right
    rwa [flat_sq]

omit hp in
theorem angles_turn {v : V} {a : ℝ × ℝ} (h : orientationAngles v = some a) (hl : Leans v) :
    ∃ b, orientationAngles (o.Q *ᵥ v) = some (a.1, b) ∧ dir (a.1, b) = o.Q *ᵥ dir a := by
  have key : ∃ b, orientationAngles (o.Q *ᵥ v) = some (a.1, b) := by
    unfold orientationAngles at h ⊢
    rw [dot, flat_sq, z]
    by_cases h0 : v ⬝ᵥ v < 1 / 10 ^ 12
    · rw [if_pos h0] at h
      cases h
    rw [if_neg h0] at h ⊢
    simp only [Option.some.injEq] at h
    subst h
    exact ⟨_, rfl⟩
  obtain ⟨b, hb⟩ := key
  refine ⟨b, hb, ?_⟩
  have h1 := (angles_dir hb (leans_turn o hl)).1
  have h2 := angles_dir h hl
  rw [dot, ← h2.1, mulVec_smul, h2.1] at h1
  exact smul_right_injective V h2.2.2.2.ne' h1

omit hp in
theorem rod_angles {a : ℝ × ℝ} (h : angles R = some a) (hl : R.N ≠ 0 → Leans R.q) :
    ∃ b, angles (rod o d R) = some (a.1, b) ∧ dir (a.1, b) = o.Q *ᵥ dir a := by
  unfold angles at h ⊢
  have hN : (rod o d R).N = R.N := rfl
  rw [hN]
  by_cases h0 : R.N = 0
  · rw [if_pos h0] at h ⊢
    simp only [Option.some.injEq] at h
    subst h
    refine ⟨0, rfl, ?_⟩
    have e : dir (0, 0) = ![0, 0, 1] := by simp [dir]
    rw [e, o.up]
  · rw [if_neg h0] at h ⊢
    exact angles_turn o h (hl h0)

omit hp in
theorem rod_r (i : ℕ) : Rods.r (rod o d R) i = o.Q *ᵥ Rods.r R i + d := by
  unfold Rods.r
  have hN : (rod o d R).N = R.N := rfl
  have h1 : (rod o d R).r0 = o.Q *ᵥ R.r0 + d := rfl
  have h2 : (rod o d R).q = o.Q *ᵥ R.q := rfl
  have h3 : (rod o d R).UnstrLen = R.UnstrLen := rfl
  dsimp only
  rw [hN, h1, h2, h3]
  split_ifs <;> simp only [mulVec_add, mulVec_smul, mulVec_sub] <;> module

theorem rod_rd (i : ℕ) : Rods.rd (rod o d R) i = o.Q *ᵥ Rods.rd R i := by
  unfold Rods.rd
  have hN : (rod o d R).N = R.N := rfl
  have h1 : (rod o d R).vA = o.Q *ᵥ R.vA := rfl
  have h2 : (rod o d R).q = o.Q *ᵥ R.q := rfl
  have h3 : (rod o d R).UnstrLen = R.UnstrLen := rfl
  have h4 : (rod o d R).w = o.Q *ᵥ R.w := rfl
  have h5 : (o.Q *ᵥ R.w) ⨯₃ (R.UnstrLen • o.Q *ᵥ R.q) = o.Q *ᵥ (R.w ⨯₃ (R.UnstrLen • R.q)) := by
    rw [← mulVec_smul, cross1 o hp]
  dsimp only
  rw [hN, h1, h2, h3, h4, h5]
  split_ifs <;> simp only [mulVec_add, mulVec_smul, mulVec_sub]

variable {e e' : Env} (h : Seen o d e e')
include h

omit hp in
theorem rod_r2 (i : ℕ) : Rods.r (rod o d R) i 2 = Rods.r R i 2 := by
  rw [rod_r, Pi.add_apply, z, h.flat, add_zero]

omit hp in
theorem rod_zeta : zetaI (rod o d R) e' = zetaI R e := h.sea.zeta _

omit hp in
theorem rod_vof (phi : ℝ) (i : ℕ) : vof (rod o d R) e' phi i = vof R e phi i := by
  have h1 : (rod o d R).q 2 = R.q 2 := z o R.q
  have hh : h0 (rod o d R) e' = h0 R e := by
    unfold h0
    have hN : (rod o d R).N = R.N := rfl
    have h3 : (rod o d R).UnstrLen = R.UnstrLen := rfl
    dsimp only
    rw [hN, rod_r2 o d R h, rod_r2 o d R h, rod_zeta o d R h, h1, h3]
  have hs : ∀ n, Lsum (rod o d R) n = Lsum R n := by
    intro n
    induction n with
    | zero => rfl
    | succ n ih =>
      rw [Lsum, Lsum, ih]
      rfl
  unfold vof
  rw [hh, hs, rod_r2 o d R h, rod_zeta o d R h]
  rfl

omit hp in
theorem rod_wet (phi : ℝ) (i : ℕ) : endWet (rod o d R) e' phi i = endWet R e phi i := by
  unfold endWet
  rw [rod_r2 o d R h, rod_zeta o d R h]
  rfl

omit hp in
theorem rod_zA (phi : ℝ) (i : ℕ) : zA (rod o d R) e' phi i = zA R e phi i := by
  unfold zA
  rw [rod_r2 o d R h, rod_zeta o d R h]
  rfl

omit hp in
theorem Q_turn (u : V) : Rods.Q (o.Q *ᵥ u) = o.Q * Rods.Q u * o.Qᵀ := outer o u u

open Classical in
omit hp h in
theorem addedM_eq (phi : ℝ) (i : ℕ) : addedM R e phi i =
    (vof R e phi i * e.rho_w * Rods.v R i) • (R.Can • (1 - Rods.Q R.q) + R.Cat • Rods.Q R.q)
    + (if i = 0 ∧ endWet R e phi i then (vof R e phi i * e.rho_w * R.CaEnd * VEnd R) • Rods.Q R.q
        else 0)
    + (if i = R.N ∧ endWet R e phi i then (vof R e phi i * e.rho_w * R.CaEnd * VEnd R) • Rods.Q R.q
        else 0) := rfl

omit hp h in
theorem sum_stuff (l : List (V × V × M3 ℝ)) :
    ((l.map (stuff o)).map fun a => a.1).sum = o.Q *ᵥ (l.map fun a => a.1).sum ∧
    ((l.map (stuff o)).map fun a => a.2.1).sum = o.Q.det • o.Q *ᵥ (l.map fun a => a.2.1).sum ∧
    ((l.map (stuff o)).map fun a => a.2.2).sum = o.Q * (l.map fun a => a.2.2).sum * o.Qᵀ := by
  induction l with
  | nil => simp
  | cons x l ih =>
    simp only [List.map_cons, List.sum_cons, ih.1, ih.2.1, ih.2.2, mulVec_add, mul_add, add_mul, smul_add]
    exact ⟨rfl, rfl, rfl⟩

omit hp in
theorem rod_M (phi : ℝ) (i : ℕ) : Rods.M (rod o d R) e' phi i = o.Q * Rods.M R e phi i * o.Qᵀ := by
  have ha : addedM (rod o d R) e' phi i = o.Q * addedM R e phi i * o.Qᵀ := by
    have e1 : (rod o d R).q = o.Q *ᵥ R.q := rfl
    have e2 : (rod o d R).N = R.N := rfl
    have e3 : (rod o d R).Can = R.Can := rfl
    have e4 : (rod o d R).Cat = R.Cat := rfl
    have e5 : (rod o d R).CaEnd = R.CaEnd := rfl
    have e6 : Rods.v (rod o d R) i = Rods.v R i := rfl
    have e7 : VEnd (rod o d R) = VEnd R := rfl
    rw [addedM_eq, addedM_eq, rod_wet o d R h, rod_vof o d R h, h.sea.rho_w, e1, e2, e3, e4, e5, e6, e7, Q_turn o d h]
    simp only [mul_add, add_mul, mul_smul_comm, smul_mul_assoc, mul_sub, sub_mul, turn_one]
    split_ifs <;> simp [mul_smul_comm, smul_mul_assoc]
  have hl : lineM (rod o d R) i = o.Q * lineM R i * o.Qᵀ := by
    unfold lineM
    have e1 : (rod o d R).attachedA = R.attachedA.map (stuff o) := rfl
    have e2 : (rod o d R).attachedB = R.attachedB.map (stuff o) := rfl
    have e3 : (rod o d R).N = R.N := rfl
    rw [e1, e2, e3, (sum_stuff o _).2.2, (sum_stuff o _).2.2, mul_add, add_mul]
    split_ifs <;> simp
  unfold Rods.M
  rw [ha, hl, mul_add, mul_add, add_mul, add_mul, mul_smul_comm, smul_mul_assoc, turn_one]
  rfl

omit hp in
theorem rod_vi (hp : o.Q.det = 1) (i : ℕ) : vi (rod o d R) e' i = o.Q *ᵥ vi R e i := by
  unfold vi
  rw [h.sea.U, rod_rd o d hp, mulVec_sub]

theorem rod_vq (i : ℕ) : Rods.vq (rod o d R) e' i = o.Q *ᵥ Rods.vq R e i := by
  unfold Rods.vq
  rw [rod_vi o d R h hp]
  show (_ ⬝ᵥ (o.Q *ᵥ R.q)) • (o.Q *ᵥ R.q) = _
  rw [dot, mulVec_smul]

theorem rod_vp (i : ℕ) : Rods.vp (rod o d R) e' i = o.Q *ᵥ Rods.vp R e i := by
  unfold Rods.vp
  rw [rod_vi o d R h hp, rod_vq o d hp R h, mulVec_sub]

omit hp in
theorem rod_aq (i : ℕ) : Rods.aq (rod o d R) e' i = o.Q *ᵥ Rods.aq R e i := by
  unfold Rods.aq
  rw [h.sea.Ud]
  show (_ ⬝ᵥ (o.Q *ᵥ R.q)) • (o.Q *ᵥ R.q) = _
  rw [dot, mulVec_smul]

omit hp in
theorem rod_ap (i : ℕ) : Rods.ap (rod o d R) e' i = o.Q *ᵥ Rods.ap R e i := by
  unfold Rods.ap
  rw [h.sea.Ud, rod_aq o d R h, mulVec_sub]

omit hp in
theorem rod_W (i : ℕ) : Rods.W (rod o d R) e' i = o.Q *ᵥ Rods.W R e i := by
  unfold Rods.W
  have e2 : (rod o d R).N = R.N := rfl
  rw [h.sea.g, e2]
  split_ifs
  · rw [mulVec_zero]
  · rw [vert]
    rfl

omit hp h in
theorem axial_eq (F : ℝ) (a : ℝ × ℝ) : Rods.axial F a.1 a.2 = F • dir a := by
  ext i
  fin_cases i <;> simp [Rods.axial, dir] <;> ring

omit hp h in
theorem side_eq (F : ℝ) (a : ℝ × ℝ) : (![F * Real.sin a.1 * Real.cos a.2 * Real.cos a.1,
    F * Real.sin a.1 * Real.sin a.2 * Real.cos a.1, -(F * Real.sin a.1) * Real.sin a.1] : V) =
    (F * Real.cos a.1) • dir a - F • ![0, 0, 1] := by
  ext i
  fin_cases i
  · simp [dir]; ring
  · simp [dir]; ring
  · have := Real.sin_sq_add_cos_sq a.1
    simp [dir]
    linear_combination (-F) * this

omit hp h in
theorem turned_eq (k : ℝ) (a : ℝ × ℝ) : (![-(k * Real.sin a.1) * Real.sin a.2,
    k * Real.sin a.1 * Real.cos a.2, 0] : V) = k • ((![0, 0, 1] : V) ⨯₃ dir a) := by
  ext i
  fin_cases i <;> simp [dir, cross_apply] <;> ring

variable {a : ℝ × ℝ} {b : ℝ} (hb : dir (a.1, b) = o.Q *ᵥ dir a)
include hb

open Classical in
omit hp in
theorem rod_Bo (i : ℕ) : Bo (rod o d R) e' a.1 b i = o.Q *ᵥ Bo R e a.1 a.2 i := by
  have e2 : (rod o d R).N = R.N := rfl
  have h1 : BoSide (rod o d R) e' a.1 b i = o.Q *ᵥ BoSide R e a.1 a.2 i := by
    unfold BoSide
    dsimp only
    rw [rod_vof o d R h, h.sea.rho_w, h.sea.g, e2]
    have e6 : Rods.v (rod o d R) i = Rods.v R i := rfl
    rw [e6]
    split_ifs
    · rw [mulVec_zero]
    · have s1 := side_eq (-vof R e a.1 i * Rods.v R i * e.rho_w * e.g) (a.1, b)
      have s2 := side_eq (-vof R e a.1 i * Rods.v R i * e.rho_w * e.g) a
      dsimp only at s1
      rw [s1, s2, hb, mulVec_sub, mulVec_smul, mulVec_smul, o.up]
  have h2 : BoA (rod o d R) e' a.1 b i = o.Q *ᵥ BoA R e a.1 a.2 i := by
    have ea : ∀ (R : Rod) (e : Env) (b : ℝ), BoA R e a.1 b i = if i = 0 ∧ endWet R e a.1 i then
        Rods.axial (-vof R e a.1 i * area R * e.rho_w * e.g * zA R e a.1 i) a.1 b else 0 :=
      fun _ _ _ => rfl
    rw [ea, ea, rod_wet o d R h, rod_vof o d R h, h.sea.rho_w, h.sea.g, rod_zA o d R h]
    have e7 : area (rod o d R) = area R := rfl
    have s1 := fun F => axial_eq F (a.1, b)
    dsimp only at s1
    rw [e7, s1, axial_eq, hb]
    split_ifs
    · rw [mulVec_smul]
    · rw [mulVec_zero]
  have h3 : BoB (rod o d R) e' a.1 b i = o.Q *ᵥ BoB R e a.1 a.2 i := by
    have ea : ∀ (R : Rod) (e : Env) (b : ℝ), BoB R e a.1 b i = if i = R.N ∧ endWet R e a.1 i then
        Rods.axial (vof R e a.1 i * area R * e.rho_w * e.g * zA R e a.1 i) a.1 b else 0 :=
      fun _ _ _ => rfl
    rw [ea, ea, rod_wet o d R h, rod_vof o d R h, h.sea.rho_w, h.sea.g, rod_zA o d R h, e2]
    have e7 : area (rod o d R) = area R := rfl
    have s1 := fun F => axial_eq F (a.1, b)
    dsimp only at s1
    rw [e7, s1, axial_eq, hb]
    split_ifs
    · rw [mulVec_smul]
    · rw [mulVec_zero]
  unfold Bo
  rw [h1, h2, h3, mulVec_add, mulVec_add]

omit hb

open Classical in
theorem rod_drag (phi : ℝ) (i : ℕ) :
    Rods.Dp (rod o d R) e' phi i = o.Q *ᵥ Rods.Dp R e phi i ∧
    Rods.Dq (rod o d R) e' phi i = o.Q *ᵥ Rods.Dq R e phi i ∧
    Rods.Ap (rod o d R) e' phi i = o.Q *ᵥ Rods.Ap R e phi i ∧
    Rods.Aq (rod o d R) e' phi i = o.Q *ᵥ Rods.Aq R e phi i ∧
    Pd (rod o d R) e' phi i = o.Q *ᵥ Pd R e phi i := by
  have e1 : (rod o d R).q = o.Q *ᵥ R.q := rfl
  have e2 : (rod o d R).N = R.N := rfl
  have e3 : (rod o d R).Can = R.Can := rfl
  have e4 : (rod o d R).Cdn = R.Cdn := rfl
  have e5 : (rod o d R).CaEnd = R.CaEnd := rfl
  have e6 : Rods.v (rod o d R) i = Rods.v R i := rfl
  have e7 : VEnd (rod o d R) = VEnd R := rfl
  have e8 : (rod o d R).d = R.d := rfl
  have e9 : dL (rod o d R) i = dL R i := rfl
  have e10 : area (rod o d R) = area R := rfl
  have e11 : (rod o d R).CdEnd = R.CdEnd := rfl
  refine ⟨?_, ?_, ?_, ?_, ?_⟩
  · unfold Rods.Dp
    rw [e2, e4, e8, e9, rod_vof o d R h, h.sea.rho_w, rod_vp o d hp R h, norm_turn]
    split_ifs
    · rw [mulVec_zero]
    · rw [mulVec_smul]
  · have ea : ∀ (R : Rod) (e : Env), Rods.Dq R e phi i =
        (if i = 0 ∧ endWet R e phi i then
          (1 / 2 * vof R e phi i * area R * e.rho_w * R.CdEnd * Mooring.norm (Rods.vq R e i)) •
            Rods.vq R e i else 0)
        + (if i = R.N ∧ endWet R e phi i then
          (1 / 2 * vof R e phi i * area R * e.rho_w * R.CdEnd * Mooring.norm (Rods.vq R e i)) •
            Rods.vq R e i else 0) := fun _ _ => rfl
    rw [ea, ea, rod_wet o d R h, rod_vof o d R h, e2, e10, e11, h.sea.rho_w, rod_vq o d hp R h, norm_turn,
      mulVec_add]
    split_ifs <;> simp [mulVec_smul]
  · unfold Rods.Ap
    rw [e2, e3, e6, rod_vof o d R h, h.sea.rho_w, rod_ap o d R h]
    split_ifs
    · rw [mulVec_zero]
    · rw [mulVec_smul]
  · have ea : ∀ (R : Rod) (e : Env), Rods.Aq R e phi i =
        (if i = 0 ∧ endWet R e phi i then
          (vof R e phi i * e.rho_w * R.CaEnd * VEnd R) • Rods.aq R e i else 0)
        + (if i = R.N ∧ endWet R e phi i then
          (vof R e phi i * e.rho_w * R.CaEnd * VEnd R) • Rods.aq R e i else 0) := fun _ _ => rfl
    rw [ea, ea, rod_wet o d R h, rod_vof o d R h, e2, e5, e7, h.sea.rho_w, rod_aq o d R h, mulVec_add]
    split_ifs <;> simp [mulVec_smul]
  · have ea : ∀ (R : Rod) (e : Env), Pd R e phi i =
        (if i = 0 ∧ endWet R e phi i then (vof R e phi i * area R * e.pdyn i) • R.q else 0)
        + (if i = R.N ∧ endWet R e phi i then (-vof R e phi i * area R * e.pdyn i) • R.q else 0) :=
      fun _ _ => rfl
    rw [ea, ea, rod_wet o d R h, rod_vof o d R h, e1, e2, e10, h.sea.pdyn, mulVec_add]
    split_ifs <;> simp [mulVec_smul, mulVec_neg]

theorem rod_B (i : ℕ) : Rods.B (rod o d R) e' i = o.Q *ᵥ Rods.B R e i := by
  unfold Rods.B
  dsimp only
  rw [rod_r2 o d R h, rod_rd o d hp, z, h.sea.kb, h.sea.cb]
  have hw : e'.waterDepth (Rods.r (rod o d R) i 0) (Rods.r (rod o d R) i 1) =
      e.waterDepth (Rods.r R i 0) (Rods.r R i 1) := by
    rw [rod_r]
    exact h.sea.waterDepth _
  rw [hw]
  have e2 : (rod o d R).N = R.N := rfl
  have e8 : (rod o d R).d = R.d := rfl
  have e9 : dL (rod o d R) i = dL R i := rfl
  rw [e2, e8, e9]
  split_ifs <;> simp only [mulVec_zero, vert]

include hb

theorem rod_Fnet (i : ℕ) : Rods.Fnet (rod o d R) e' a.1 b i = o.Q *ᵥ Rods.Fnet R e a.1 a.2 i := by
  have hl : lineF (rod o d R) i = o.Q *ᵥ lineF R i := by
    unfold lineF
    have e1 : (rod o d R).attachedA = R.attachedA.map (stuff o) := rfl
    have e2 : (rod o d R).attachedB = R.attachedB.map (stuff o) := rfl
    have e3 : (rod o d R).N = R.N := rfl
    rw [e1, e2, e3, (sum_stuff o _).1, (sum_stuff o _).1, mulVec_add]
    split_ifs <;> simp
  obtain ⟨h1, h2, h3, h4, h5⟩ := rod_drag o d hp R h a.1 i
  unfold Rods.Fnet
  rw [rod_W o d R h, rod_Bo o d R h hb, h1, h2, h3, h4, h5, rod_B o d hp R h, hl]
  simp only [mulVec_add]

open Classical in
theorem rod_Mext : Mext (rod o d R) e' a.1 b = o.Q *ᵥ Mext R e a.1 a.2 := by
  have e2 : (rod o d R).N = R.N := rfl
  have e8 : (rod o d R).d = R.d := rfl
  have hx : (![0, 0, 1] : V) ⨯₃ dir (a.1, b) = o.Q *ᵥ ((![0, 0, 1] : V) ⨯₃ dir a) := by
    rw [hb, ← cross1 o hp, o.up]
  have t1 := fun k => turned_eq k (a.1, b)
  dsimp only at t1
  have t2 := fun k => turned_eq k a
  have h1 : MextCap (rod o d R) e' a.1 b = o.Q *ᵥ MextCap R e a.1 a.2 := by
    have ea : ∀ (R : Rod) (e : Env) (a : ℝ × ℝ), MextCap R e a.1 a.2 =
        (if endWet R e a.1 0 then
          (vof R e a.1 0 * 1 / 64 * Real.pi * R.d * R.d * R.d * R.d * e.rho_w * e.g) •
            ((![0, 0, 1] : V) ⨯₃ dir a) else 0)
        + (if endWet R e a.1 R.N then
          (-(vof R e a.1 R.N * 1 / 64 * Real.pi * R.d * R.d * R.d * R.d * e.rho_w * e.g)) •
            ((![0, 0, 1] : V) ⨯₃ dir a) else 0) := by
      intro R e a
      rw [← turned_eq, ← turned_eq]
      unfold MextCap
      dsimp only
      congr 2
      ext i
      fin_cases i <;> simp
    have eb := ea (rod o d R) e' (a.1, b)
    dsimp only at eb
    rw [eb, ea, rod_wet o d R h, rod_wet o d R h, rod_vof o d R h, rod_vof o d R h, e2, e8, h.sea.rho_w,
      h.sea.g, hx, mulVec_add]
    split_ifs <;> simp only [mulVec_smul, mulVec_zero]
  have h2 : MextWater (rod o d R) e' a.1 b = o.Q *ᵥ MextWater R e a.1 a.2 := by
    have ea : ∀ (R : Rod) (e : Env) (a : ℝ × ℝ), MextWater R e a.1 a.2 =
        if Rods.r R 0 2 < zetaI R e ∧ Rods.r R R.N 2 > zetaI R e then
          (-(1 / 16 * Real.pi * R.d * R.d * R.d * R.d * e.rho_w * e.g * Real.cos a.1)) •
            ((![0, 0, 1] : V) ⨯₃ dir a) else 0 := by
      intro R e a
      rw [← turned_eq]
      unfold MextWater
      congr 1
      ext i
      fin_cases i <;> simp <;> left <;> ring
    have eb := ea (rod o d R) e' (a.1, b)
    dsimp only at eb
    rw [eb, ea, rod_r2 o d R h, rod_r2 o d R h, rod_zeta o d R h, e2, e8, h.sea.rho_w, h.sea.g, hx]
    split_ifs <;> simp only [mulVec_smul, mulVec_zero]
  have h3 : MextLine (rod o d R) = o.Q *ᵥ MextLine R := by
    unfold MextLine
    have e1 : (rod o d R).attachedA = R.attachedA.map (stuff o) := rfl
    have e3 : (rod o d R).attachedB = R.attachedB.map (stuff o) := rfl
    rw [e1, e3, (sum_stuff o _).2.1, (sum_stuff o _).2.1, hp, one_smul, one_smul, mulVec_add]
  unfold Mext
  rw [h1, h2, h3, mulVec_add, mulVec_add]

theorem rod_F6 : F6net (rod o d R) e' a.1 b = (o.Q *ᵥ (F6net R e a.1 a.2).1, o.Q *ᵥ (F6net R e a.1 a.2).2) := by
  unfold F6net
  have e2 : (rod o d R).N = R.N := rfl
  have er : ∀ i, Rods.r (rod o d R) i - Rods.r (rod o d R) 0 = o.Q *ᵥ (Rods.r R i - Rods.r R 0) := by
    intro i
    rw [rod_r, rod_r, mulVec_sub]
    abel
  rw [e2, rod_Mext o d hp R h hb]
  simp only [rod_Fnet o d hp R h hb, er, cross1 o hp]
  apply Prod.ext
  · dsimp only
    exact (map_sum (mulVecLin o.Q) _ _).symm
  · dsimp only
    rw [mulVec_add]
    congr 1
    exact (map_sum (mulVecLin o.Q) _ _).symm

theorem rod_M6 : M6net (rod o d R) e' a.1 b = (M6net R e a.1 a.2).map (mass6 o) := by
  unfold M6net
  have e2 : (rod o d R).N = R.N := rfl
  have er : ∀ i, Rods.r (rod o d R) i - Rods.r (rod o d R) 0 = o.Q *ᵥ (Rods.r R i - Rods.r R 0) := by
    intro i
    rw [rod_r, rod_r, mulVec_sub]
    abel
  have ei : inertiaCorrection (rod o d R) = inertiaCorrection R := rfl
  rw [ei, e2, Option.map_map]
  congr 1
  funext c
  have hI : Imat a.1 b c.1 c.2 = o.Q * Imat a.1 a.2 c.1 c.2 * o.Qᵀ := by
    rw [Imat_eq a.1 b c.1 c.2 (dir (a.1, b)) rfl, Imat_eq a.1 a.2 c.1 c.2 (dir a) rfl, hb, Q_turn o d h]
    simp only [mul_add, add_mul, mul_sub, sub_mul, mul_smul_comm, smul_mul_assoc, turn_one]
  simp only [er, rod_M o d R h, translate_turn o hp, hI, Function.comp_apply, mass6_add]
  have h0 : fromBlocks 0 0 0 (o.Q * Imat a.1 a.2 c.1 c.2 * o.Qᵀ) =
      mass6 o (fromBlocks 0 0 0 (Imat a.1 a.2 c.1 c.2)) := by
    rw [mass6_blocks]
    simp
  rw [h0]
  congr 1
  unfold mass6
  rw [Finset.mul_sum, Finset.sum_mul]

omit hb

theorem rod_centripetal (phi : ℝ) (p w : V) :
    centripetal (rod o d R) e' phi (o.Q *ᵥ p + d) (o.Q *ᵥ w) = o.Q *ᵥ centripetal R e phi p w := by
  unfold centripetal
  have e2 : (rod o d R).N = R.N := rfl
  have er : ∀ i, Rods.r (rod o d R) i - (o.Q *ᵥ p + d) = o.Q *ᵥ (Rods.r R i - p) := by
    intro i
    rw [rod_r, mulVec_sub]
    abel
  rw [e2]
  simp only [er, cross1 o hp, rod_M o d R h, mulVec_mulVec]
  split_ifs
  · rw [mulVec_zero]
  · rw [mulVec_neg]
    congr 1
    refine Eq.trans (Finset.sum_congr rfl fun i _ => ?_) (map_sum (mulVecLin o.Q) _ _).symm
    rw [mul_assoc (o.Q * _), o.orth, mul_one, mulVecLin_apply, mulVec_mulVec]

omit hp h in
theorem rod_angles_same (hQ : o.Q = 1) {a : ℝ × ℝ} (h : angles R = some a) :
    ∃ b, angles (rod o d R) = some (a.1, b) ∧ dir (a.1, b) = o.Q *ᵥ dir a := by
  refine ⟨a.2, ?_, by rw [hQ, one_mulVec]⟩
  have e1 : (rod o d R).q = R.q := by
    show o.Q *ᵥ R.q = R.q
    rw [hQ, one_mulVec]
  unfold angles at h ⊢
  rw [e1]
  exact h

theorem rod_any (hl : R.N ≠ 0 → o.Q = 1 ∨ Leans R.q) (rRef w : V) :
    getNetForceAndMass (rod o d R) e' (o.Q *ᵥ rRef + d) (o.Q *ᵥ w) =
      (getNetForceAndMass R e rRef w).map (load o) := by
  unfold getNetForceAndMass
  cases ha : angles R with
  | none =>
    have : angles (rod o d R) = none := by
      unfold angles at ha ⊢
      have e2 : (rod o d R).N = R.N := rfl
      rw [e2]
      by_cases h0 : R.N = 0
      · rw [if_pos h0] at ha
        cases ha
      · rw [if_neg h0] at ha ⊢
        unfold orientationAngles at ha ⊢
        have e1 : (rod o d R).q = o.Q *ᵥ R.q := rfl
        rw [e1, dot]
        by_cases h1 : R.q ⬝ᵥ R.q < 1 / 10 ^ 12
        · rw [if_pos h1]
        · rw [if_neg h1] at ha
          cases ha
    rw [this]
    rfl
  | some a =>
    obtain ⟨b, h1, h2⟩ : ∃ b, angles (rod o d R) = some (a.1, b) ∧ dir (a.1, b) = o.Q *ᵥ dir a := by
      by_cases hQ : o.Q = 1
      · exact rod_angles_same o d R hQ ha
      · exact rod_angles o d R ha fun h0 => (hl h0).resolve_left hQ
    rw [h1]
    simp only [Option.bind_some]
    rw [rod_M6 o d hp R h h2, Option.map_map, Option.map_map]
    congr 1
    funext M6
    have er : Rods.r (rod o d R) 0 - (o.Q *ᵥ rRef + d) = o.Q *ᵥ (Rods.r R 0 - rRef) := by
      rw [rod_r, mulVec_sub]
      abel
    simp only [Function.comp_apply, load]
    rw [rod_F6 o d hp R h h2, er, rod_centripetal o d hp R h, translate6_turn o hp]
    simp only [cross1 o hp, mulVec_add]

/-- C99, rods: force, moment and mass matrix about any point. -/
theorem C99_rod_partial (hl : R.N ≠ 0 → Leans R.q) (rRef w : V) :
    getNetForceAndMass (rod o d R) e' (o.Q *ᵥ rRef + d) (o.Q *ᵥ w) =
      (getNetForceAndMass R e rRef w).map (load o) :=
  rod_any o d hp R h (fun h0 => .inr (hl h0)) rRef w

/-- C99, rods: the acceleration of a free rod. -/
theorem C99_rod_acc_partial (hl : R.N ≠ 0 → Leans R.q) (a al : V) (hf : freeAcc R e a al) :
    freeAcc (rod o d R) e' (o.Q *ᵥ a) (o.Q *ᵥ al) := by
  obtain ⟨F, Mo, M6, h1, h2⟩ := hf
  refine ⟨o.Q *ᵥ F, o.Q *ᵥ Mo, mass6 o M6, ?_, solve6 o _ _ _ _ _ h2⟩
  have := C99_rod_partial o d hp R h hl (Rods.r R 0) 0
  rw [mulVec_zero, ← rod_r, h1] at this
  exact this

/-! ## Bodies -/

variable (B : Body)

omit h in
theorem addAll_turn (l : List (V × V × M6 ℝ)) (x : V × V × M6 ℝ) :
    addAll (l.map (load o)) (load o x) = load o (addAll l x) := by
  induction l generalizing x with
  | nil => rfl
  | cons y l ih =>
    rw [List.map_cons, addAll, addAll, ← ih]
    simp only [load, mulVec_add, mass6_add]

omit h in
theorem body_ownM (rho_w : ℝ) : (body o d B).ownM rho_w = mass6 o (B.ownM rho_w) := by
  unfold Body.ownM
  have e1 : (body o d B).OrMat = o.Q * B.OrMat := rfl
  have e2 : (body o d B).M0 rho_w = B.M0 rho_w := rfl
  rw [e1, e2]
  unfold rotateMass6 rotateMass
  dsimp only
  rw [mass6_blocks]
  simp only [transpose_mul, mul_assoc, transpose_transpose]

omit h in
theorem body_ownF (rho_w g : ℝ) : (body o d B).ownF rho_w g =
    (o.Q *ᵥ (B.ownF rho_w g).1, o.Q *ᵥ (B.ownF rho_w g).2) := by
  have e1 : (body o d B).OrMat = o.Q * B.OrMat := rfl
  have e2 : (body o d B).w = o.Q *ᵥ B.w := rfl
  have e3 : (body o d B).Fgrav rho_w g = o.Q *ᵥ B.Fgrav rho_w g := by
    unfold Body.Fgrav
    rw [vert]
    rfl
  have e4 : (body o d B).rCG = o.Q *ᵥ B.rCG := by
    unfold Body.rCG
    rw [e1, ← mulVec_mulVec]
    rfl
  have e5 : (body o d B).drag rho_w = o.Q *ᵥ B.drag rho_w := by
    unfold Body.drag
    have : (body o d B).U - (body o d B).v = o.Q *ᵥ (B.U - B.v) := by
      rw [mulVec_sub]
      rfl
    dsimp only
    rw [this, norm_turn, e1, mulVec_smul]
    congr 1
    show (o.Q * B.OrMat * diagonal B.CdA * (o.Q * B.OrMat)ᵀ) *ᵥ _ = _
    simp only [mulVec_mulVec]
    congr 1
    calc _ = o.Q * B.OrMat * diagonal B.CdA * B.OrMatᵀ * (o.Qᵀ * o.Q) := by
          rw [transpose_mul]; noncomm_ring
      _ = _ := by rw [o.orth]; noncomm_ring
  have e6 : (body o d B).dragMoment rho_w = o.Q *ᵥ B.dragMoment rho_w := by
    unfold Body.dragMoment
    rw [e2, ← mulVec_neg, norm_turn, e1, mulVec_smul]
    congr 1
    show (o.Q * B.OrMat * diagonal B.CdAr * (o.Q * B.OrMat)ᵀ) *ᵥ _ = _
    simp only [mulVec_mulVec]
    congr 1
    calc _ = o.Q * B.OrMat * diagonal B.CdAr * B.OrMatᵀ * (o.Qᵀ * o.Q) := by
          rw [transpose_mul]; noncomm_ring
      _ = _ := by rw [o.orth]; noncomm_ring
  unfold Body.ownF
  rw [e2, e3, e4, e5, e6, body_ownM o d hp, mass6_eq]
  simp only [toBlocks_fromBlocks₁₁, cross1 o hp, mulVec_add, mulVec_sub, mulVec_mulVec]
  rw [mul_assoc (o.Q * _), o.orth, mul_one]

/-- C99, bodies with points and rods: force, moment and mass matrix. -/
theorem C99_body_partial (points : List Point) (rods : List Rod)
    (hl : ∀ R ∈ rods, R.N ≠ 0 → Leans R.q) :
    (body o d B).doRHS e' (points.map (point o d)) (rods.map (rod o d)) =
      (B.doRHS e points rods).map (load o) := by
  unfold Body.doRHS
  dsimp only
  have e1 : (body o d B).pos = o.Q *ᵥ B.pos + d := rfl
  have e2 : (body o d B).w = o.Q *ᵥ B.w := rfl
  rw [e1, e2, h.sea.rho_w, h.sea.g, body_ownF o d hp, body_ownM o d hp]
  have h1 : (points.map (point o d)).map (fun p => p.getNetForceAndMass e.rho_w e.g (o.Q *ᵥ B.pos + d)
      (o.Q *ᵥ B.w)) = (points.map fun p => p.getNetForceAndMass e.rho_w e.g B.pos B.w).map (load o) := by
    simp only [List.map_map]
    exact List.map_congr_left fun p _ => C99_body_point o d hp p _ _ _ _
  have h2 : ((rods.map (rod o d)).mapM fun R => getNetForceAndMass R e' (o.Q *ᵥ B.pos + d) (o.Q *ᵥ B.w)) =
      ((rods.mapM fun R => getNetForceAndMass R e B.pos B.w).map (List.map (load o))) := by
    clear h1
    induction rods with
    | nil => rfl
    | cons R rods ih =>
      rw [List.map_cons, List.mapM_cons, List.mapM_cons, C99_rod_partial o d hp R h (hl R (by simp)),
        ih fun R' hR' => hl R' (by simp [hR'])]
      cases getNetForceAndMass R e B.pos B.w with
      | none => rfl
      | some x =>
        cases rods.mapM fun R => getNetForceAndMass R e B.pos B.w with
        | none => rfl
        | some l => rfl
  rw [h1, h2, Option.map_map, Option.map_map]
  congr 1
  funext l
  simp only [Function.comp_apply]
  rw [← addAll_turn o hp, ← addAll_turn o hp]
  rfl

/-- C99, bodies: the acceleration of a free body. -/
theorem C99_body_acc_partial (points : List Point) (rods : List Rod)
    (hl : ∀ R ∈ rods, R.N ≠ 0 → Leans R.q) (a al : V) (hf : B.freeAcc e points rods a al) :
    (body o d B).freeAcc e' (points.map (point o d)) (rods.map (rod o d)) (o.Q *ᵥ a) (o.Q *ᵥ al) := by
  obtain ⟨F, Mo, M6, h1, h2⟩ := hf
  refine ⟨o.Q *ᵥ F, o.Q *ᵥ Mo, mass6 o M6, ?_, solve6 o _ _ _ _ _ h2⟩
  rw [C99_body_partial o d hp h B points rods hl, h1]
  rfl

/-- C99: the kinematics that a body imposes on its points. -/
theorem C99_kinematics (rel : V) (p : Point) :
    (body o d B).setPoint rel (point o d p) = point o d (B.setPoint rel p) := by
  unfold Body.setPoint transformKinematics
  have e1 : (body o d B).OrMat *ᵥ rel = o.Q *ᵥ (B.OrMat *ᵥ rel) := by
    rw [mulVec_mulVec]
    rfl
  dsimp only
  rw [e1]
  have e2 : (body o d B).pos = o.Q *ᵥ B.pos + d := rfl
  have e3 : (body o d B).w = o.Q *ᵥ B.w := rfl
  have e4 : (body o d B).v = o.Q *ᵥ B.v := rfl
  rw [e2, e3, e4, cross1 o hp, ← add_assoc, ← mulVec_add, ← mulVec_add]
  rfl

end

end MD.Frame
