import Verif.Spec.GearPart
import Verif.Props.WholeSeparate
import Verif.Props.Body

/-!
# The formulas of the code do not depend on the order in which forces are added
-/

set_option linter.unusedSimpArgs false
set_option linter.unusedSectionVars false
set_option linter.unusedVariables false

namespace MD.Whole

open MD.Mooring Matrix MD.Mat MD.Rot

theorem mapM_perm {α β : Type} (f : α → Option β) {l l' : List α} (h : l.Perm l') :
    (l.mapM f = none ∧ l'.mapM f = none) ∨ ∃ a a', l.mapM f = some a ∧ l'.mapM f = some a' ∧ a.Perm a' := by
  induction h with
  | nil => exact .inr ⟨[], [], rfl, rfl, .refl _⟩
  | cons x h ih =>
    simp only [List.mapM_cons, Option.bind_eq_bind, Option.pure_def]
    cases f x with
    | none => exact .inl ⟨rfl, rfl⟩
    | some y =>
      rcases ih with ⟨h1, h2⟩ | ⟨a, a', h1, h2, hp⟩
      · rw [h1, h2]; exact .inl ⟨rfl, rfl⟩
      · rw [h1, h2]; exact .inr ⟨y :: a, y :: a', rfl, rfl, hp.cons y⟩
  | swap x y l =>
    simp only [List.mapM_cons, Option.bind_eq_bind, Option.pure_def]
    cases f x <;> cases f y <;> cases l.mapM f
    all_goals first
      | exact .inl ⟨rfl, rfl⟩
      | exact .inr ⟨_, _, rfl, rfl, .swap _ _ _⟩
  | trans h1 h2 ih1 ih2 =>
    rcases ih1 with ⟨a1, a2⟩ | ⟨a, a', a1, a2, hp⟩
    · rcases ih2 with ⟨b1, b2⟩ | ⟨b, b', b1, b2, hq⟩
      · exact .inl ⟨a1, b2⟩
      · rw [a2] at b1; cases b1
    · rcases ih2 with ⟨b1, b2⟩ | ⟨b, b', b1, b2, hq⟩
      · rw [a2] at b1; cases b1
      · rw [a2] at b1
        cases b1
        exact .inr ⟨a, b', a1, b2, hp.trans hq⟩

/-- What is made from the sum only is the same. -/
theorem mapM_sum {α β γ : Type} [AddCommMonoid β] (f : α → Option β) (g : β → γ) {l l' : List α} (h : l'.Perm l) :
    (l.mapM f).map (fun a => g a.sum) = (l'.mapM f).map fun a => g a.sum := by
  rcases mapM_perm f h with ⟨h1, h2⟩ | ⟨a, a', h1, h2, hp⟩
  · rw [h1, h2]
  · rw [h1, h2]
    simp only [Option.map_some, hp.sum_eq]

theorem mapM_sum_bind {α β γ : Type} [AddCommMonoid β] (f : α → Option β) (g : β → Option γ) {l l' : List α} (h : l'.Perm l) :
    (l.mapM f).bind (fun a => g a.sum) = (l'.mapM f).bind fun a => g a.sum := by
  rcases mapM_perm f h with ⟨h1, h2⟩ | ⟨a, a', h1, h2, hp⟩
  · rw [h1, h2]
  · rw [h1, h2]
    simp only [Option.bind_some, hp.sum_eq]

variable {G G' : Gear}

theorem pointF_any (i i' : ℕ) (hi : G'.point i = G.point i') (r rd : V) (w : Water) {l l' : List (LineOut × EndPt)} (h : l'.Perm l) :
    G'.pointF i r rd w l = G.pointF i' r rd w l' := by
  unfold Gear.pointF
  rw [hi]
  exact mapM_sum _ (fun a => { G.point i' with r := r, rd := rd, U := w.2.1, attached := [a] }) h

theorem rodF_any (he : G'.env = G.env) (i i' : ℕ) (hi : G'.rod i = G.rod i') (q : Quat ℝ) (w a : V) (r rd : ℕ → V) (wt : ℕ → Water)
    {lA lA' lB lB' : List (LineOut × EndPt)} (hA : lA'.Perm lA) (hB : lB'.Perm lB) :
    G'.rodF i q w a r rd wt lA lB = G.rodF i' q w a r rd wt lA' lB' := by
  unfold Gear.rodF Gear.around
  rw [hi, he]
  congr 1
  funext x w'
  simp only [Option.bind_eq_bind]
  rw [← mapM_sum_bind (fun a : LineOut × EndPt => a.1.stuff a.2) (fun sA => (lB'.mapM fun a : LineOut × EndPt => a.1.stuff a.2).bind fun lB =>
    Rods.getNetForceAndMass { G.rod i' with r0 := r 0, q := a, vA := rd 0, w := w, attachedA := [sA], attachedB := [lB.sum] } _ x w') hA]
  congr 1
  funext lA
  exact mapM_sum_bind (fun a : LineOut × EndPt => a.1.stuff a.2) (fun sB =>
    Rods.getNetForceAndMass { G.rod i' with r0 := r 0, q := a, vA := rd 0, w := w, attachedA := [lA.sum], attachedB := [sB] } _ x w') hB

theorem addAll_sum (l : List (V × V × M6 ℝ)) (x : V × V × M6 ℝ) : Bodies.addAll l x = x + l.sum := by
  induction l generalizing x with
  | nil => simp [Bodies.addAll]
  | cons a l ih =>
    rw [Bodies.addAll, ih, List.sum_cons, ← add_assoc]
    rfl

theorem bodyF_any (he : G'.env = G.env) (b b' : ℕ) (hb : G'.body b = G.body b') (x : V) (q : Quat ℝ) (v w : V) (m : M3 ℝ) (wt : Water)
    {lP lP' : List (V × Option Bodies.Point)} {lR lR' : List (V × V × RodOut)} (hP : lP'.Perm lP) (hR : lR'.Perm lR) :
    G'.bodyF b x q v w m wt lP lR = G.bodyF b' x q v w m wt lP' lR' := by
  unfold Gear.bodyF
  rw [hb, he]
  simp only [Option.bind_eq_bind, Option.pure_def, addAll_sum]
  set c := (_, _, _)
  rw [← mapM_sum_bind _ (fun sP => (lR'.mapM fun a : V × V × RodOut => a.2.2.about x w).bind fun lR => some (c + sP + lR.sum)) hP]
  congr 1
  funext lP
  exact mapM_sum_bind _ (fun sR => some (c + lP.sum + sR)) hR

/-- A part, as the theorems on systems with any formulas have it. -/
theorem Gear.Part.within {β : Names} (h : Gear.Part β G G') : Within β G.code G'.code where
  nb := h.nb
  nr := h.nr
  np := h.np
  nl := h.nl
  bkind := h.bkind
  rkind := h.rkind
  pkind := h.pkind
  pts := h.pts
  rods := h.rods
  groundPts := h.groundPts
  groundRods := h.groundRods
  ptsBack := h.ptsBack
  rodsBack := h.rodsBack
  ends := h.ends
  endsA := h.endsA
  endsB := h.endsB
  held := fun k hk p => by
    rcases h.held k hk p with ⟨i, hi, ha⟩ | ⟨i, hi, ha | ha⟩
    · exact ⟨.point i, hi, ha⟩
    · exact ⟨.rodA i, hi, ha⟩
    · exact ⟨.rodB i, hi, ha⟩
  rodN := fun i hi => congrArg Rods.Rod.N (h.rod i hi)
  rodLen := fun i hi => congrArg Rods.Rod.UnstrLen (h.rod i hi)
  q0 := h.q0
  lineN := fun k hk => congrArg Mooring.Line.N (h.line k hk)
  mat := rfl
  pose := rfl
  between := by
    show (fun a b => (Rods.fromTwoVectors a b).getD (G'.half a b)) = fun a b => (Rods.fromTwoVectors a b).getD (G.half a b)
    rw [h.half]
  one := rfl
  sea := h.kin
  lineF := fun k hk => by
    show G'.lineF k = G.lineF (β.line k)
    unfold Gear.lineF Gear.lineNow Gear.around
    rw [h.line k hk, h.env]
  pointF := fun i hi r rd w l l' hl => pointF_any i _ (h.point i hi) r rd w hl
  rodF := fun i hi quat w q r rd wt lA lA' lB lB' hA hB => rodF_any h.env i _ (h.rod i hi) quat w q r rd wt hA hB
  bodyF := fun b hb pos quat vel w M wt lP lP' lR lR' hP hR => bodyF_any h.env b _ (h.body b hb) pos quat vel w M wt hP hR
  pointA := by
    show G'.pointA = G.pointA
    unfold Gear.pointA
    rw [h.env]
  rodA := rfl
  pinA := rfl
  quatA := rfl
  bodyA := rfl
  bodyPinA := rfl

/-- Other numbers, as the theorems on systems with any formulas have it. -/
theorem Gear.renumbered_code {σ : Order} (hσ : σ.Of G) (hG : G.Rightly) : Reordered σ (G.renumbered σ).code G.code where
  nb := rfl
  nr := rfl
  np := rfl
  nl := rfl
  bodies := hσ.bodies
  rodIds := hσ.rods
  points := hσ.points
  lines := hσ.lines
  bkind := fun b => by simp [Gear.code, Gear.renumbered]
  rkind := fun b => by simp [Gear.code, Gear.renumbered]
  pkind := fun b => by simp [Gear.code, Gear.renumbered]
  pts := fun b => by
    have : (b.map σ.body).map σ.body.symm = b := by cases b <;> simp
    simp [Gear.code, Gear.renumbered, this]
  rods := fun b => by
    have : (b.map σ.body).map σ.body.symm = b := by cases b <;> simp
    simp [Gear.code, Gear.renumbered, this]
  ends := fun b => by simp [Gear.code, Gear.renumbered]
  endsA := fun b => by simp [Gear.code, Gear.renumbered]
  endsB := fun b => by simp [Gear.code, Gear.renumbered]
  held := fun k hk p => by
    rcases hG.held k hk p with ⟨i, hi, ha⟩ | ⟨i, hi, ha | ha⟩
    · exact ⟨.point i, hi, ha⟩
    · exact ⟨.rodA i, hi, ha⟩
    · exact ⟨.rodB i, hi, ha⟩
  rodN := fun b => by simp [Gear.code, Gear.renumbered]
  rodLen := fun b => by simp [Gear.code, Gear.renumbered]
  q0 := fun b => by simp [Gear.code, Gear.renumbered]
  lineN := fun b => by simp [Gear.code, Gear.renumbered]
  mat := rfl
  pose := rfl
  between := rfl
  one := rfl
  sea := rfl
  lineF := fun k => by
    show G.lineF k = (G.renumbered σ).lineF (σ.line k)
    unfold Gear.lineF Gear.lineNow Gear.around
    simp [Gear.renumbered]
  pointF := fun i r rd w l l' hl => pointF_any i _ (by simp [Gear.renumbered]) r rd w hl
  rodF := fun i quat w q r rd wt lA lA' lB lB' hA hB => rodF_any rfl i _ (by simp [Gear.renumbered]) quat w q r rd wt hA hB
  bodyF := fun b pos quat vel w M wt lP lP' lR lR' hP hR => bodyF_any rfl b _ (by simp [Gear.renumbered]) pos quat vel w M wt hP hR
  pointA := rfl
  rodA := rfl
  pinA := rfl
  quatA := rfl
  bodyA := rfl
  bodyPinA := rfl

end MD.Whole
