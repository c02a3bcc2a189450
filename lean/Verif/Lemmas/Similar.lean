import Verif.Spec.Similar
import Verif.Lemmas.Relate

/-!
# Lemmas: what is done to the objects does not depend on how they are written down
-/

set_option linter.unusedSimpArgs false
set_option linter.unusedSectionVars false
set_option linter.unusedVariables false
set_option linter.unnecessarySeqFocus false

namespace MD.Whole

open MD.Mooring Matrix
open MD.Moored (Kind)

variable {Q FL FP FR FB Wt : Type} [AddCommGroup Q] [Module ℝ Q] {o : View Q FL FP FR FB Wt} {S S' : System Q FL FP FR FB Wt}

namespace View

theorem vel_zero : o.vel 0 = 0 := by simp [vel]
theorem spin_zero : o.spin 0 = 0 := by simp [spin]
theorem acc_zero : o.acc 0 = 0 := by simp [acc]
theorem vel_add (a b : V) : o.vel (a + b) = o.vel a + o.vel b := by simp [vel, mulVec_add]
theorem spin_add (a b : V) : o.spin (a + b) = o.spin a + o.spin b := by simp [spin, mulVec_add]
theorem acc_add (a b : V) : o.acc (a + b) = o.acc a + o.acc b := by simp [acc, mulVec_add]
theorem spinAcc_add (a b : V) : o.spinAcc (a + b) = o.spinAcc a + o.spinAcc b := by simp [spinAcc, mulVec_add]
theorem vel_sub (a b : V) : o.vel (a - b) = o.vel a - o.vel b := by simp [vel, mulVec_sub, smul_sub]
theorem spin_sub (a b : V) : o.spin (a - b) = o.spin a - o.spin b := by simp [spin, mulVec_sub, smul_sub]
theorem vel_smul (x : ℝ) (a : V) : o.vel (x • a) = x • o.vel a := by simp only [vel, mulVec_smul, smul_smul, mul_comm x]
theorem spin_smul (x : ℝ) (a : V) : o.spin (x • a) = x • o.spin a := by simp only [spin, mulVec_smul, smul_smul, mul_comm x]
theorem acc_smul (x : ℝ) (a : V) : o.acc (x • a) = x • o.acc a := by simp only [acc, mulVec_smul, smul_smul, mul_comm x]
theorem spinAcc_smul (x : ℝ) (a : V) : o.spinAcc (x • a) = x • o.spinAcc a := by simp only [spinAcc, mulVec_smul, smul_smul, mul_comm x]

theorem place_add (a b : V) : o.place (a + b) = o.place a + o.arrow b := by
  simp only [place, arrow, mulVec_add, smul_add]
  abel

theorem place_sub (a b : V) : o.place a - o.place b = o.arrow (a - b) := by
  simp only [place, arrow, mulVec_sub, smul_sub]
  abel

theorem arrow_smul (x : ℝ) (a : V) : o.arrow (x • a) = x • o.arrow a := by simp only [arrow, mulVec_smul, smul_smul, mul_comm x]

variable (ht : o.tim ≠ 0)
include ht

theorem tim_vel (x : ℝ) (v : V) : (o.tim * x) • o.vel v = o.arrow (x • v) := by
  simp only [vel, arrow, mulVec_smul, smul_smul]
  congr 1
  field_simp

theorem place_move (x : ℝ) (p v : V) : o.place p + (o.tim * x) • o.vel v = o.place (p + x • v) := by
  rw [tim_vel ht, place_add]

theorem tim_acc (x : ℝ) (a : V) : (o.tim * x) • o.acc a = o.vel (x • a) := by
  simp only [vel, acc, mulVec_smul, smul_smul]
  congr 1
  field_simp

theorem tim_spinAcc (x : ℝ) (a : V) : (o.tim * x) • o.spinAcc a = o.spin (x • a) := by
  simp only [spin, spinAcc, mulVec_smul, smul_smul]
  congr 1
  field_simp

theorem div_vel (x : ℝ) (v : V) : (1 / (o.tim * x)) • o.vel v = o.acc ((1 / x) • v) := by
  simp only [vel, acc, mulVec_smul, smul_smul]
  congr 1
  field_simp

theorem div_spin (x : ℝ) (v : V) : (1 / (o.tim * x)) • o.spin v = o.spinAcc ((1 / x) • v) := by
  simp only [spin, spinAcc, mulVec_smul, smul_smul]
  congr 1
  field_simp

theorem spin_cross (hh : o.sgn * o.sgn = 1) (hc : ∀ a b : V, (o.R *ᵥ a) ⨯₃ (o.R *ᵥ b) = o.sgn • (o.R *ᵥ (a ⨯₃ b))) (w x : V) :
    o.spin w ⨯₃ o.arrow x = o.vel (w ⨯₃ x) := by
  unfold spin arrow vel
  rw [LinearMap.map_smul, LinearMap.map_smul₂, hc, smul_smul, smul_smul]
  congr 1
  field_simp
  linear_combination o.len * hh

end View

open View

theorem fold_view {σ σ' α : Type} {P : σ → σ' → Prop} {f : σ → α → σ} {g : σ' → α → σ'} (l : List α)
    (h : ∀ a ∈ l, ∀ s s', P s s' → P (f s a) (g s' a)) {s : σ} {s' : σ'} (hs : P s s') : P (l.foldl f s) (l.foldl g s') := by
  induction l generalizing s s' with
  | nil => exact hs
  | cons a l ih =>
    rw [List.foldl_cons, List.foldl_cons]
    exact ih (fun b hb => h b (List.mem_cons_of_mem _ hb)) (h a List.mem_cons_self _ _ hs)

theorem view_update {α β : Type} {P : ℕ → α → β → Prop} {f : ℕ → α} {g : ℕ → β} (h : ∀ i, P i (f i) (g i)) (i : ℕ) {a : α} {b : β}
    (ha : P i a b) (j : ℕ) : P j (Function.update f i a j) (Function.update g i b j) := by
  by_cases hj : j = i
  · subst hj
    rw [Function.update_self, Function.update_self]
    exact ha
  · rw [Function.update_of_ne hj, Function.update_of_ne hj]
    exact h j

/-! ## Lines -/

theorem giveEnd_view (N : ℕ) (x xd : V) (p : EndPt) {L L' : Line FL} (h : ViewLine o L L') :
    ViewLine o (giveEnd N x xd p L) (giveEnd N (o.place x) (o.vel xd) p L') := by
  obtain ⟨s, F⟩ := L
  obtain ⟨s', F'⟩ := L'
  obtain ⟨hs, hF⟩ := h
  dsimp only at hs hF
  subst hs hF
  cases p <;> refine ⟨?_, rfl⟩ <;> simp only [giveEnd, shape, Shape.mk.injEq, and_true, true_and] <;>
    refine ⟨funext fun j => ?_, funext fun j => ?_⟩ <;> simp only [Function.update_apply] <;> split_ifs <;> rfl

theorem giveDir_view (q : V) (p : EndPt) (e : REnd) {L L' : Line FL} (h : ViewLine o L L') :
    ViewLine o (giveDir q p e L) (giveDir (o.R *ᵥ q) p e L') := by
  obtain ⟨s, F⟩ := L
  obtain ⟨s', F'⟩ := L'
  obtain ⟨hs, hF⟩ := h
  dsimp only at hs hF
  subst hs hF
  cases p <;> cases e <;> refine ⟨?_, rfl⟩ <;> simp [giveDir, shape, mulVec_neg]

theorem passEnds_view (hw : Similar o S S') (x xd : V) (l : List (ℕ × EndPt)) {f f' : ℕ → Line FL} (h : ∀ k, ViewLine o (f k) (f' k)) :
    ∀ k, ViewLine o (passEnds S x xd l f k) (passEnds S' (o.place x) (o.vel xd) l f' k) := by
  unfold passEnds
  refine fold_view (P := fun f f' : ℕ → Line FL => ∀ k, ViewLine o (f k) (f' k)) l (fun a _ f f' hf => ?_) h
  rw [hw.lineN]
  exact view_update (P := fun _ => ViewLine o) hf a.1 (giveEnd_view _ _ _ _ (hf a.1))

theorem passDirs_view (q : V) (e : REnd) (l : List (ℕ × EndPt)) {f f' : ℕ → Line FL} (h : ∀ k, ViewLine o (f k) (f' k)) :
    ∀ k, ViewLine o (passDirs q e l f k) (passDirs (o.R *ᵥ q) e l f' k) := by
  unfold passDirs
  refine fold_view (P := fun f f' : ℕ → Line FL => ∀ k, ViewLine o (f k) (f' k)) l (fun a _ f f' hf => ?_) h
  exact view_update (P := fun _ => ViewLine o) hf a.1 (giveDir_view _ _ _ (hf a.1))

/-! ## Points -/

theorem movePoint_view (hw : Similar o S S') (i : ℕ) (x xd : V) {m m' : Mem Q FL FP FR FB} (h : ViewMem o S S' m m') :
    ViewMem o S S' (movePoint S i x xd m) (movePoint S' i (o.place x) (o.vel xd) m') := by
  refine ⟨h.t, ?_, ?_, h.rod, h.body, h.ground, h.ground'⟩
  · show ∀ k, ViewLine o (passEnds S x xd (S.ends i) m.line k) (passEnds S' (o.place x) (o.vel xd) (S'.ends i) m'.line k)
    rw [hw.ends]
    exact passEnds_view hw _ _ _ h.line
  · exact view_update (P := fun i => ViewPoint o (S.pkind i)) h.point i ⟨rfl, rfl, (h.point i).ves, (h.point i).F⟩

/-! ## Rods -/

theorem momentSum_view (hw : Similar o S S') (i : ℕ) {f f' : ℕ → Line FL} (h : ∀ k, ViewLine o (f k) (f' k)) :
    momentSum S' i f' = o.mom • (o.R *ᵥ momentSum S i f) := by
  have key : ∀ (l : List (ℕ × EndPt)) (e : REnd), (l.map fun a => S'.moment a.1 (f' a.1).s (f' a.1).F a.2 e).sum =
      o.mom • (o.R *ᵥ (l.map fun a => S.moment a.1 (f a.1).s (f a.1).F a.2 e).sum) := by
    intro l e
    induction l with
    | nil => simp
    | cons a l ih =>
      rw [List.map_cons, List.map_cons, List.sum_cons, List.sum_cons, ih, mulVec_add, smul_add, (h a.1).s, (h a.1).F, hw.moment]
  unfold momentSum
  rw [hw.endsA, hw.endsB, key, key, mulVec_add, smul_add]

theorem rodEnds_view (hw : Similar o S S') (i : ℕ) {R R' : Rod Q FR} (h : ViewRod o S S' i R R') :
    ViewRod o S S' i (rodEnds S i R) (rodEnds S' i R') := by
  have ht := hw.tim.ne'
  have hq : S'.mat R'.quat *ᵥ S'.q0 i = o.R *ᵥ (S.mat R.quat *ᵥ S.q0 i) := h.quat.1
  have h1 : ∀ j, Function.update R'.r 0 R'.pos j = o.place (Function.update R.r 0 R.pos j) :=
    view_update (P := fun _ x y => y = o.place x) h.r 0 h.pos
  have h2 : ∀ j, Function.update R'.rd 0 R'.vel j = o.vel (Function.update R.rd 0 R.vel j) :=
    view_update (P := fun _ x y => y = o.vel x) h.rd 0 h.vel
  have h3 : S'.rodLen i • (o.R *ᵥ (S.mat R.quat *ᵥ S.q0 i)) = o.arrow (S.rodLen i • (S.mat R.quat *ᵥ S.q0 i)) := by
    rw [arrow_smul, hw.rodLen]
    unfold arrow
    rw [smul_smul, mul_comm]
  unfold rodEnds
  rw [hw.rodN]
  by_cases hN : 0 < S.rodN i
  · rw [if_pos hN, if_pos hN]
    refine ⟨h.pos, h.quat, h.vel, h.w, hq, ?_, ?_, h.acc, h.ves, h.heads, h.F⟩
    · refine view_update (P := fun _ x y => y = o.place x) h1 _ ?_
      rw [hq, h3, h.pos, place_add]
    · refine view_update (P := fun _ x y => y = o.vel x) h2 _ ?_
      rw [hq, h3, h.vel, h.w, spin_cross ht hw.hand hw.cross, vel_add]
  · rw [if_neg hN, if_neg hN]
    exact ⟨h.pos, h.quat, h.vel, h.w, h.q, h1, h2, h.acc, h.ves, h.heads, h.F⟩

theorem passRod_view (hw : Similar o S S') (i : ℕ) {m m' : Mem Q FL FP FR FB} (h : ViewMem o S S' m m') :
    ViewMem o S S' (passRod S i m) (passRod S' i m') := by
  have hR := rodEnds_view hw i (h.rod i)
  have hl1 := passEnds_view hw ((rodEnds S i (m.rod i)).r 0) ((rodEnds S i (m.rod i)).rd 0) (S.endsA i) h.line
  rw [← hR.r, ← hR.rd] at hl1
  have hl2 := passEnds_view hw ((rodEnds S i (m.rod i)).r (S.rodN i)) ((rodEnds S i (m.rod i)).rd (S.rodN i)) (S.endsB i) hl1
  rw [← hR.r, ← hR.rd] at hl2
  have hM := momentSum_view hw i hl2
  unfold passRod
  dsimp only
  rw [hw.endsA, hw.endsB, hw.rodN, hM, hw.unit]
  by_cases hN : 0 < S.rodN i
  · simp only [if_pos hN]
    refine ⟨h.t, ?_, h.point, view_update (P := fun i => ViewRod o S S' i) h.rod i hR, h.body, h.ground, h.ground'⟩
    dsimp only
    rw [hR.q]
    exact passDirs_view _ _ _ (passDirs_view _ _ _ hl2)
  · simp only [if_neg hN]
    refine ⟨h.t, ?_, h.point, view_update (P := fun i => ViewRod o S S' i) h.rod i ?_, h.body, h.ground, h.ground'⟩
    · exact passDirs_view _ _ _ (passDirs_view _ _ _ hl2)
    · exact ⟨hR.pos, hR.quat, hR.vel, hR.w, rfl, hR.r, hR.rd, hR.acc, hR.ves, hR.heads, hR.F⟩

theorem setRod_view (i : ℕ) {f f' : Rod Q FR → Rod Q FR} {m m' : Mem Q FL FP FR FB} (h : ViewMem o S S' m m')
    (hf : ViewRod o S S' i (f (m.rod i)) (f' (m'.rod i))) : ViewMem o S S' (setRod i f m) (setRod i f' m') :=
  ⟨h.t, h.line, h.point, view_update (P := fun i => ViewRod o S S' i) h.rod i hf, h.body, h.ground, h.ground'⟩

theorem setRod_here (i : ℕ) (f : Rod Q FR → Rod Q FR) (m : Mem Q FL FP FR FB) : (setRod i f m).rod i = f (m.rod i) :=
  Function.update_self ..

theorem rodKin_view (hw : Similar o S S') (i : ℕ) (x v dir w : V)
    (hb : S.rkind i = .FIXED → S'.mat (S'.between (S'.q0 i) (o.R *ᵥ dir)) *ᵥ S'.q0 i = o.R *ᵥ (S.mat (S.between (S.q0 i) dir) *ᵥ S.q0 i))
    {m m' : Mem Q FL FP FR FB} (h : ViewMem o S S' m m') :
    ViewMem o S S' (rodKin S i x v dir w m) (rodKin S' i (o.place x) (o.vel v) (o.R *ᵥ dir) (o.spin w) m') := by
  have last : ∀ m m' : Mem Q FL FP FR FB, ViewMem o S S' m m' →
      ViewMem o S S' (setRod i (fun R => { R with q := S.mat R.quat *ᵥ S.q0 i }) m)
        (setRod i (fun R => { R with q := S'.mat R.quat *ᵥ S'.q0 i }) m') := by
    intro m m' h
    have hR := h.rod i
    exact setRod_view i h ⟨hR.pos, hR.quat, hR.vel, hR.w, hR.quat.1, hR.r, hR.rd, hR.acc, hR.ves, hR.heads, hR.F⟩
  have hR := h.rod i
  unfold rodKin
  rw [hw.rkind]
  by_cases hk : S.rkind i = .FIXED
  · simp only [if_pos hk]
    refine last _ _ (passRod_view hw i (setRod_view i h ?_))
    refine ⟨rfl, ⟨?_, fun hn => absurd hk hn⟩, rfl, rfl, hR.q, hR.r, hR.rd, hR.acc, hR.ves, hR.heads, hR.F⟩
    dsimp only
    exact hb hk
  · simp only [if_neg hk]
    refine last _ _ (setRod_view i h ?_)
    exact ⟨rfl, hR.quat, rfl, hR.w, hR.q, hR.r, hR.rd, hR.acc, hR.ves, hR.heads, hR.F⟩

/-! ## Bodies -/

theorem passBody_view (hw : Similar o S S') (b : ℕ) {B B' : Body Q FB} (hB : ViewBody o S S' b (S.bkind b) B B')
    {q : Q} (hq : o.ok q) (hm : B.orMat = S.mat q) {m m' : Mem Q FL FP FR FB}
    (h : ViewMem o S S' m m') : ViewMem o S S' (passBody S (some b) B m) (passBody S' (some b) B' m') := by
  have ht := hw.tim.ne'
  have hd : ∀ d, B'.orMat *ᵥ (o.own b *ᵥ d) = o.R *ᵥ (B.orMat *ᵥ d) := by
    intro d
    rw [hB.orMat, mulVec_mulVec, mul_assoc, hw.orth, mul_one, mulVec_mulVec]
  have e : ∀ rel, B'.orMat *ᵥ (o.len • (o.own b *ᵥ rel)) = o.arrow (B.orMat *ᵥ rel) := by
    intro rel
    rw [mulVec_smul, hd]
    rfl
  have key : ∀ rel, Mat.transformKinematics (o.len • (o.own b *ᵥ rel)) B'.orMat B'.pos B'.vel B'.w =
      (o.place (Mat.transformKinematics rel B.orMat B.pos B.vel B.w).1, o.vel (Mat.transformKinematics rel B.orMat B.pos B.vel B.w).2) := by
    intro rel
    unfold Mat.transformKinematics
    dsimp only
    rw [e, hB.pos, hB.vel, hB.w, spin_cross ht hw.hand hw.cross, vel_add, add_comm (B.orMat *ᵥ rel), place_add, add_comm]
  unfold passBody
  rw [hw.pts, hw.rods, List.foldl_map, List.foldl_map]
  refine fold_view _ (fun a ha m m' h => ?_) (fold_view _ (fun a _ m m' h => ?_) h)
  · dsimp only
    rw [key, hd, hB.w]
    refine rodKin_view hw _ _ _ _ _ (fun hk => ?_) h
    rw [hm]
    exact hw.between _ a ha hk q hq
  · dsimp only
    rw [key]
    exact movePoint_view hw _ _ _ h

theorem passGround_view (hw : Similar o S S') {B B' : Body Q FB} (hB : IsGround B) (hB' : IsGround B') {m m' : Mem Q FL FP FR FB}
    (h : ViewMem o S S' m m') : ViewMem o S S' (passBody S none B m) (passBody S' none B' m') := by
  have key : ∀ (B : Body Q FB) (rel : V), IsGround B → Mat.transformKinematics rel B.orMat B.pos B.vel B.w = (rel, 0) := by
    intro B rel hB
    simp [Mat.transformKinematics, hB.orMat, hB.pos, hB.vel, hB.w]
  unfold passBody
  rw [hw.groundPts, hw.groundRods, List.foldl_map, List.foldl_map]
  refine fold_view _ (fun a ha m m' h => ?_) (fold_view _ (fun a _ m m' h => ?_) h)
  · dsimp only
    rw [key B _ hB, key B' _ hB', hB.orMat, hB'.orMat, hB.w, hB'.w, one_mulVec, one_mulVec]
    have := rodKin_view hw a.1 a.2.1 0 a.2.2 0 (fun hk => by
      have := hw.between _ a ha hk _ (hw.posed 0)
      rwa [hw.ground.2.1, one_mulVec] at this) h
    rwa [vel_zero, spin_zero] at this
  · dsimp only
    rw [key B _ hB, key B' _ hB']
    have := movePoint_view hw a.1 a.2 0 h
    rwa [vel_zero] at this

theorem setBody_view {m m' : Mem Q FL FP FR FB} (h : ViewMem o S S' m m') (b : ℕ) {B B' : Body Q FB}
    (hB : ViewBody o S S' b (S.bkind b) B B') :
    ViewMem o S S' { m with body := Function.update m.body b B } { m' with body := Function.update m'.body b B' } :=
  ⟨h.t, h.line, h.point, h.rod, view_update (P := fun b => ViewBody o S S' b (S.bkind b)) h.body b hB, h.ground, h.ground'⟩

theorem bodyFair_ground (hp : (S.pose 0).1 = 0) (hm : S.mat (S.pose 0).2 = 1) (t : ℝ) {B : Body Q FB} (h : IsGround B) :
    IsGround (bodyFair S t B) := by
  have e : B.ves.1 + t • B.ves.2.1 = 0 := by rw [h.ves]; simp
  unfold bodyFair
  refine ⟨?_, ?_, ?_, ?_, h.ves⟩ <;> dsimp only
  · rw [e, hp]
  · rw [h.ves]; rfl
  · rw [h.ves]; rfl
  · rw [e, hm]

theorem bodyFair_view (hw : Similar o S S') (tl : ℝ) {b : ℕ} {k : BKind} (hk : k = .COUPLED) {B B' : Body Q FB} (h : ViewBody o S S' b k B B') :
    ViewBody o S S' b k (bodyFair S tl B) (bodyFair S' (o.tim * tl) B') := by
  have hv := h.ves hk
  have e := hv.course.pose tl
  dsimp only at e
  unfold bodyFair
  refine ⟨?_, ?_, hv.course.vel, hv.course.spin, ?_, hv.acc, h.ves, h.heads, h.F⟩ <;> dsimp only <;> rw [e]
  exact hw.matB _ _ (hw.posed _)

theorem fairBody_view (hw : Similar o S S') (tl : ℝ) (b : ℕ) {m m' : Mem Q FL FP FR FB} (h : ViewMem o S S' m m') :
    ViewMem o S S' (fairBody S tl m b) (fairBody S' (o.tim * tl) m' b) := by
  have hB := h.body b
  unfold fairBody
  rw [hw.bkind]
  cases hk : S.bkind b with
  | FREE => exact h
  | FIXED => exact h
  | COUPLED =>
    have := bodyFair_view hw tl hk hB
    exact passBody_view hw b this (hw.posed _) rfl (setBody_view h b this)
  | CPLDPIN =>
    have hv := hB.heads hk
    refine setBody_view h b ⟨?_, hB.quat, hv.head.vel, hB.w, hB.orMat, ?_, hB.ves, hB.heads, hB.F⟩
    · have e1 := hv.head.place
      have e2 := hv.head.vel
      dsimp only at e1 e2 ⊢
      rw [e1, e2, place_move hw.tim.ne']
    · dsimp only
      rw [hv.acc, hB.acc]

theorem fairRod_view (hw : Similar o S S') (tl : ℝ) (i : ℕ) {m m' : Mem Q FL FP FR FB} (h : ViewMem o S S' m m') :
    ViewMem o S S' (fairRod S tl m i) (fairRod S' (o.tim * tl) m' i) := by
  have hR := h.rod i
  unfold fairRod
  rw [hw.rkind]
  cases hk : S.rkind i with
  | FREE => exact h
  | FIXED => exact h
  | PINNED => exact h
  | COUPLED =>
    have hv := hR.ves hk
    have e := hv.course.pose tl
    dsimp only at e
    refine passRod_view hw i (setRod_view i h ?_)
    refine ⟨?_, ⟨?_, fun _ => ?_⟩, hv.course.vel, hv.course.spin, hR.q, hR.r, hR.rd, hv.acc, hR.ves, hR.heads, hR.F⟩ <;> dsimp only <;>
      rw [e]
    rw [hw.mat _ _ (hw.posed _)]
  | CPLDPIN =>
    have hv := hR.heads hk
    have e1 := hv.head.place
    have e2 := hv.head.vel
    dsimp only at e1 e2
    refine setRod_view i h ⟨?_, hR.quat, e2, hR.w, hR.q, hR.r, hR.rd, ?_, hR.ves, hR.heads, hR.F⟩
    · dsimp only
      rw [e1, e2, place_move hw.tim.ne']
    · dsimp only
      rw [hv.acc, hR.acc]

theorem fairPoint_view (hw : Similar o S S') (tl : ℝ) (i : ℕ) {m m' : Mem Q FL FP FR FB} (h : ViewMem o S S' m m') :
    ViewMem o S S' (fairPoint S tl m i) (fairPoint S' (o.tim * tl) m' i) := by
  unfold fairPoint
  rw [hw.pkind]
  by_cases hk : S.pkind i = .COUPLED
  · rw [if_pos hk, if_pos hk, (h.point i).ves hk]
    dsimp only
    rw [place_move hw.tim.ne']
    exact movePoint_view hw _ _ _ h
  · rw [if_neg hk, if_neg hk]
    exact h

/-! ## States -/

theorem stateBody_view (hw : Similar o S S') {e e' : State Q} (he : ViewState o S e e') (ho : OkState o S e) (b : ℕ) (hb : b < S.nb)
    {m m' : Mem Q FL FP FR FB} (h : ViewMem o S S' m m') :
    ViewMem o S S' (stateBody S e.2.2.2 m b) (stateBody S' e'.2.2.2 m' b) := by
  have hB := h.body b
  unfold stateBody
  rw [hw.bkind]
  cases hk : S.bkind b with
  | COUPLED => exact h
  | FIXED => exact h
  | FREE =>
    have ev := he.body b hb (by rw [hk]; trivial)
    have : ViewBody o S S' b (S.bkind b)
        { m.body b with pos := (e.2.2.2 b).1.1, quat := (e.2.2.2 b).1.2, vel := (e.2.2.2 b).2.1, w := (e.2.2.2 b).2.2, orMat := S.mat (e.2.2.2 b).1.2 }
        { m'.body b with pos := (e'.2.2.2 b).1.1, quat := (e'.2.2.2 b).1.2, vel := (e'.2.2.2 b).2.1, w := (e'.2.2.2 b).2.2,
                         orMat := S'.mat (e'.2.2.2 b).1.2 } := by
      refine ⟨?_, ?_, ?_, ?_, ?_, hB.acc, hB.ves, hB.heads, hB.F⟩ <;> dsimp only <;> rw [ev]
      exact hw.matB _ _ (ho.body b hb (by rw [hk]; trivial))
    exact passBody_view hw b this (ho.body b hb (by rw [hk]; trivial)) rfl (setBody_view h b this)
  | CPLDPIN =>
    have ev := he.body b hb (by rw [hk]; trivial)
    have : ViewBody o S S' b (S.bkind b)
        { m.body b with quat := (e.2.2.2 b).1.2, w := (e.2.2.2 b).2.2, orMat := S.mat (e.2.2.2 b).1.2 }
        { m'.body b with quat := (e'.2.2.2 b).1.2, w := (e'.2.2.2 b).2.2, orMat := S'.mat (e'.2.2.2 b).1.2 } := by
      refine ⟨hB.pos, ?_, hB.vel, ?_, ?_, hB.acc, hB.ves, hB.heads, hB.F⟩ <;> dsimp only <;> rw [ev]
      exact hw.matB _ _ (ho.body b hb (by rw [hk]; trivial))
    exact passBody_view hw b this (ho.body b hb (by rw [hk]; trivial)) rfl (setBody_view h b this)

theorem settle_view (hw : Similar o S S') (i : ℕ) (hi : i < S.nr) {R R' : Rod Q FR} (h : ViewRod o S S' i R R') :
    ViewRod o S S' i (settle S i R) (settle S' i R') := by
  unfold settle
  rw [hw.rodN]
  by_cases hN : 0 < S.rodN i
  · simp only [if_pos hN]
    exact ⟨h.pos, h.quat, h.vel, h.w, h.quat.1, h.r, h.rd, h.acc, h.ves, h.heads, h.F⟩
  · simp only [if_neg hN]
    obtain ⟨e, e1⟩ := hw.one i hi (by omega)
    have e2 : S'.mat S'.one *ᵥ S'.q0 i = o.R *ᵥ (S.mat S.one *ᵥ S.q0 i) := by rw [e, hw.mat _ _ e1]
    exact ⟨h.pos, ⟨e2, fun _ => e⟩, h.vel, spin_zero.symm, e2, h.r, h.rd, h.acc, h.ves, h.heads, h.F⟩

theorem stateRod_view (hw : Similar o S S') {e e' : State Q} (he : ViewState o S e e') (ho : OkState o S e) (i : ℕ) (hi : i < S.nr)
    {m m' : Mem Q FL FP FR FB} (h : ViewMem o S S' m m') :
    ViewMem o S S' (stateRod S e.2.2.1 m i) (stateRod S' e'.2.2.1 m' i) := by
  have hR := h.rod i
  have last : ∀ {m m' : Mem Q FL FP FR FB}, ViewMem o S S' m m' →
      ViewMem o S S' (setRod i (settle S i) m) (setRod i (settle S' i) m') :=
    fun h => setRod_view i h (settle_view hw i hi (h.rod i))
  unfold stateRod
  rw [hw.rkind]
  have mq : ∀ q : Q, o.ok q → S'.mat (o.turn q) *ᵥ S'.q0 i = o.R *ᵥ (S.mat q *ᵥ S.q0 i) := fun q hq => by
    rw [hw.mat i q hq]
  cases hk : S.rkind i with
  | COUPLED => exact h
  | FIXED => exact h
  | FREE =>
    have ev := he.rod i hi (by rw [hk]; trivial)
    refine last (passRod_view hw i (setRod_view i h ?_))
    refine ⟨?_, ⟨?_, fun _ => ?_⟩, ?_, ?_, hR.q, hR.r, hR.rd, hR.acc, hR.ves, hR.heads, hR.F⟩ <;> dsimp only <;> rw [ev]
    exact mq _ (ho.rod i hi (by rw [hk]; trivial))
  | PINNED =>
    have ev := he.rod i hi (by rw [hk]; trivial)
    refine last (passRod_view hw i (setRod_view i h ?_))
    refine ⟨hR.pos, ⟨?_, fun _ => ?_⟩, hR.vel, ?_, hR.q, hR.r, hR.rd, hR.acc, hR.ves, hR.heads, hR.F⟩ <;> dsimp only <;> rw [ev]
    exact mq _ (ho.rod i hi (by rw [hk]; trivial))
  | CPLDPIN =>
    have ev := he.rod i hi (by rw [hk]; trivial)
    refine last (passRod_view hw i (setRod_view i h ?_))
    refine ⟨hR.pos, ⟨?_, fun _ => ?_⟩, hR.vel, ?_, hR.q, hR.r, hR.rd, hR.acc, hR.ves, hR.heads, hR.F⟩ <;> dsimp only <;> rw [ev]
    exact mq _ (ho.rod i hi (by rw [hk]; trivial))

theorem statePoint_view (hw : Similar o S S') {e e' : State Q} (he : ViewState o S e e') (i : ℕ) (hi : i < S.np)
    {m m' : Mem Q FL FP FR FB} (h : ViewMem o S S' m m') :
    ViewMem o S S' (statePoint S e.2.1 m i) (statePoint S' e'.2.1 m' i) := by
  unfold statePoint
  rw [hw.pkind]
  by_cases hk : S.pkind i = .FREE
  · rw [if_pos hk, if_pos hk, he.point i hi hk]
    exact movePoint_view hw _ _ _ h
  · rw [if_neg hk, if_neg hk]
    exact h

theorem stateLines_view (hw : Similar o S S') {e e' : State Q} (he : ViewState o S e e') {m m' : Mem Q FL FP FR FB}
    (h : ViewMem o S S' m m') : ViewMem o S S' (stateLines S e.1 m) (stateLines S' e'.1 m') := by
  refine ⟨h.t, fun k => ?_, h.point, h.rod, h.body, h.ground, h.ground'⟩
  unfold stateLines
  dsimp only
  rw [hw.nl, hw.lineN]
  by_cases hk : k < S.nl
  · rw [if_pos hk, if_pos hk]
    have hL := h.line k
    refine ⟨?_, hL.F⟩
    simp only [stateLine, hL.s, shape, Shape.mk.injEq, and_true, true_and]
    refine ⟨funext fun j => ?_, funext fun j => ?_⟩ <;> split_ifs with hj <;> try rfl
    all_goals rw [he.line k hk (j - 1) (by omega)]
  · rw [if_neg hk, if_neg hk]
    exact h.line k

theorem update_view (hw : Similar o S S') (t tl : ℝ) {e e' : State Q} (he : ViewState o S e e') (ho : OkState o S e) {m m' : Mem Q FL FP FR FB}
    (h : ViewMem o S S' m m') : ViewMem o S S' (update S t tl e m) (update S' (o.tim * t) (o.tim * tl) e' m') := by
  obtain ⟨g1, g2, g3, g4⟩ := hw.ground
  have hg := bodyFair_ground g1 g2 t h.ground
  have hg' := bodyFair_ground g3 g4 (o.tim * t) h.ground'
  unfold update
  dsimp only
  rw [hw.nb, hw.nr, hw.np]
  refine stateLines_view hw he ?_
  refine fold_view _ (fun i hi m m' h => statePoint_view hw he i (List.mem_range.1 hi) h) ?_
  refine fold_view _ (fun i hi m m' h => stateRod_view hw he ho i (List.mem_range.1 hi) h) ?_
  refine fold_view _ (fun i hi m m' h => stateBody_view hw he ho i (List.mem_range.1 hi) h) ?_
  refine fold_view _ (fun i hi m m' h => fairPoint_view hw tl i h) ?_
  refine fold_view _ (fun i hi m m' h => fairRod_view hw tl i h) ?_
  refine fold_view _ (fun i hi m m' h => fairBody_view hw tl i h) ?_
  exact passGround_view hw hg hg' ⟨rfl, h.line, h.point, h.rod, h.body, hg, hg'⟩

/-! ## Forces -/

theorem given_view {f f' : ℕ → Line FL} (h : ∀ k, ViewLine o (f k) (f' k)) (l : List (ℕ × EndPt)) :
    given f' l = (given f l).map o.got := by
  unfold given
  rw [List.map_map]
  exact List.map_congr_left fun a _ => by simp [got, (h a.1).F]

theorem rhsPoint_view (hw : Similar o S S') (i : ℕ) {m m' : Mem Q FL FP FR FB} (h : ViewMem o S S' m m') :
    ViewMem o S S' (rhsPoint S i m) (rhsPoint S' i m') := by
  have hP := h.point i
  refine ⟨h.t, h.line, ?_, h.rod, h.body, h.ground, h.ground'⟩
  refine view_update (P := fun i => ViewPoint o (S.pkind i)) h.point i ⟨hP.r, hP.rd, hP.ves, ?_⟩
  dsimp only
  rw [hP.r, hP.rd, h.t, hw.sea, hw.ends, given_view h.line, hw.pointF]

theorem straight_place (N : ℕ) {x x' : ℕ → V} (h : ∀ j, x' j = o.place (x j)) (j : ℕ) : straight N x' j = o.place (straight N x j) := by
  unfold straight
  rw [h, h, h]
  split_ifs
  · rw [place_sub, ← arrow_smul, place_add]
  · rfl

theorem straight_vel (N : ℕ) {x x' : ℕ → V} (h : ∀ j, x' j = o.vel (x j)) (j : ℕ) : straight N x' j = o.vel (straight N x j) := by
  unfold straight
  rw [h, h, h]
  split_ifs
  · rw [← vel_sub, ← vel_smul, vel_add]
  · rfl

theorem rhsRod_view (hw : Similar o S S') {wt wt' : ℕ → ℕ → Wt} (hwt : ∀ i j, wt' i j = o.water (wt i j)) (i : ℕ) (hi : i < S.nr)
    {m m' : Mem Q FL FP FR FB} (h : ViewMem o S S' m m') (hf : FitMem o S m) :
    ViewMem o S S' (rhsRod S wt i m) (rhsRod S' wt' i m') ∧ FitMem o S (rhsRod S wt i m) := by
  have hR := h.rod i
  refine ⟨?_, fun j hj => ?_⟩
  swap
  · by_cases he : j = i
    · subst he
      simpa [rhsRod] using hf j hj
    · simpa [rhsRod, he] using hf j hj
  refine ⟨h.t, h.line, h.point, ?_, h.body, h.ground, h.ground'⟩
  have e1 := straight_place (S.rodN i) hR.r
  have e2 := straight_vel (S.rodN i) hR.rd
  refine view_update (P := fun i => ViewRod o S S' i) h.rod i
    ⟨hR.pos, hR.quat, hR.vel, hR.w, hR.q, ?_, ?_, hR.acc, hR.ves, hR.heads, ?_⟩ <;> dsimp only
  · rw [hw.rodN]
    exact e1
  · rw [hw.rodN]
    exact e2
  · rw [hw.rodN, funext e1, funext e2, hR.w, hR.q, funext (hwt i), hw.endsA, hw.endsB, given_view h.line, given_view h.line,
      hw.rodF i hi _ _ _ _ _ _ _ _ _ hR.quat (hf i hi)]

theorem rhsBody_view (hw : Similar o S S') {wt wt' : ℕ → ℕ → Wt} (hwt : ∀ i j, wt' i j = o.water (wt i j)) (b : ℕ)
    {m m' : Mem Q FL FP FR FB} (h : ViewMem o S S' m m') (hf : FitMem o S m) :
    ViewMem o S S' (rhsBody S wt b m) (rhsBody S' wt' b m') ∧ FitMem o S (rhsBody S wt b m) := by
  have h2 : (fun m m' => ViewMem o S S' m m' ∧ FitMem o S m)
      ((S.rods (some b)).foldl (fun m a => rhsRod S wt a.1 m) ((S.pts (some b)).foldl (fun m a => rhsPoint S a.1 m) m))
      ((S'.rods (some b)).foldl (fun m a => rhsRod S' wt' a.1 m) ((S'.pts (some b)).foldl (fun m a => rhsPoint S' a.1 m) m')) := by
    rw [hw.pts, hw.rods, List.foldl_map, List.foldl_map]
    refine fold_view (P := fun m m' => ViewMem o S S' m m' ∧ FitMem o S m) _
      (fun a ha m m' h => rhsRod_view hw hwt _ (hw.there _ a ha) h.1 h.2) ?_
    refine fold_view (P := fun m m' => ViewMem o S S' m m' ∧ FitMem o S m) _ (fun a _ m m' h => ?_) ⟨h, hf⟩
    exact ⟨rhsPoint_view hw a.1 h.1, h.2⟩
  unfold rhsBody
  dsimp only
  generalize (S.rods (some b)).foldl (fun m a => rhsRod S wt a.1 m) ((S.pts (some b)).foldl (fun m a => rhsPoint S a.1 m) m) = m2 at h2 ⊢
  generalize (S'.rods (some b)).foldl (fun m a => rhsRod S' wt' a.1 m) ((S'.pts (some b)).foldl (fun m a => rhsPoint S' a.1 m) m') = m2' at h2 ⊢
  obtain ⟨h2, hf2⟩ := h2
  have hB := h2.body b
  refine ⟨?_, hf2⟩
  refine setBody_view h2 b ⟨hB.pos, hB.quat, hB.vel, hB.w, hB.orMat, hB.acc, hB.ves, hB.heads, ?_⟩
  dsimp only
  rw [← hw.bodyF, hB.pos, hB.quat, hB.vel, hB.w, hB.orMat, h2.t, hw.sea, hw.pts, hw.rods]
  simp only [List.map_map, Function.comp_def, (h2.point _).r, (h2.point _).F, (h2.rod _).pos, (h2.rod _).vel, (h2.rod _).F]

theorem evalLines_view (hw : Similar o S S') {m m' : Mem Q FL FP FR FB} (h : ViewMem o S S' m m') :
    ViewMem o S S' (evalLines S m) (evalLines S' m') := by
  refine ⟨h.t, fun k => ?_, h.point, h.rod, h.body, h.ground, h.ground'⟩
  unfold evalLines
  dsimp only
  rw [hw.nl]
  by_cases hk : k < S.nl
  · rw [if_pos hk, if_pos hk]
    refine ⟨(h.line k).s, ?_⟩
    dsimp only
    rw [(h.line k).s, h.t, ← (hw.lineF k _ _).2]
    congr 2
    funext j
    exact hw.sea _ _
  · rw [if_neg hk, if_neg hk]
    exact h.line k

theorem evalRod_view (hw : Similar o S S') {wt wt' : ℕ → ℕ → Wt} (hwt : ∀ i j, wt' i j = o.water (wt i j)) (i : ℕ) (hi : i < S.nr)
    {m m' : Mem Q FL FP FR FB} (h : ViewMem o S S' m m') (hf : FitMem o S m) :
    ViewMem o S S' (evalRod S wt m i) (evalRod S' wt' m' i) ∧ FitMem o S (evalRod S wt m i) := by
  obtain ⟨h2, hf2⟩ := rhsRod_view hw hwt i hi h hf
  have hR := h2.rod i
  have h3 : ViewMem o S S' (setRod i (fun R => { R with acc := (0, R.acc.2) }) (rhsRod S wt i m))
      (setRod i (fun R => { R with acc := (0, R.acc.2) }) (rhsRod S' wt' i m')) := by
    refine setRod_view i h2 ⟨hR.pos, hR.quat, hR.vel, hR.w, hR.q, hR.r, hR.rd, ?_, hR.ves, hR.heads, hR.F⟩
    dsimp only
    rw [hR.acc, acc_zero]
  have hf3 : FitMem o S (setRod i (fun R => { R with acc := (0, R.acc.2) }) (rhsRod S wt i m)) := by
    intro j hj
    by_cases he : j = i
    · subst he
      simpa [setRod] using hf2 j hj
    · simpa [setRod, he] using hf2 j hj
  unfold evalRod
  rw [hw.rkind]
  cases S.rkind i with
  | FREE => exact ⟨h2, hf2⟩
  | PINNED => exact ⟨h3, hf3⟩
  | CPLDPIN => exact ⟨h3, hf3⟩
  | COUPLED => exact ⟨h, hf⟩
  | FIXED => exact ⟨h, hf⟩

theorem evaluate_view (hw : Similar o S S') {m m' : Mem Q FL FP FR FB} (h : ViewMem o S S' m m') (hf : FitMem o S m) :
    ViewMem o S S' (evaluate S m) (evaluate S' m') := by
  have hwt : ∀ i j, rodWater S' m' i j = o.water (rodWater S m i j) := by
    intro i j
    unfold rodWater
    rw [h.t, (h.rod i).r, hw.sea]
  have main : ∀ {m m' : Mem Q FL FP FR FB}, ViewMem o S S' m m' ∧ FitMem o S m →
      ViewMem o S S' (passBody S none m.ground m) (passBody S' none m'.ground m') :=
    fun h => passGround_view hw h.1.ground h.1.ground' h.1
  unfold evaluate
  dsimp only
  rw [hw.nb, hw.nr, hw.np]
  refine main ?_
  refine fold_view (P := fun m m' => ViewMem o S S' m m' ∧ FitMem o S m) _ (fun b _ m m' h => ?_) ?_
  · unfold askBody
    rw [hw.bkind]
    split_ifs
    · exact rhsBody_view hw hwt b h.1 h.2
    · exact h
  refine fold_view (P := fun m m' => ViewMem o S S' m m' ∧ FitMem o S m) _ (fun i hi m m' h => ?_) ?_
  · unfold askRod
    rw [hw.rkind]
    split_ifs
    · exact rhsRod_view hw hwt i (List.mem_range.1 hi) h.1 h.2
    · exact h
  refine fold_view (P := fun m m' => ViewMem o S S' m m' ∧ FitMem o S m) _ (fun i hi m m' h => ?_) ?_
  · unfold askPoint
    rw [hw.pkind]
    split_ifs
    · exact ⟨rhsPoint_view hw i h.1, h.2⟩
    · exact h
  refine fold_view (P := fun m m' => ViewMem o S S' m m' ∧ FitMem o S m) _ (fun b _ m m' h => ?_) ?_
  · unfold evalBody
    rw [hw.bkind]
    split_ifs
    · exact rhsBody_view hw hwt b h.1 h.2
    · exact h
  refine fold_view (P := fun m m' => ViewMem o S S' m m' ∧ FitMem o S m) _
    (fun i hi m m' h => evalRod_view hw hwt i (List.mem_range.1 hi) h.1 h.2) ?_
  refine fold_view (P := fun m m' => ViewMem o S S' m m' ∧ FitMem o S m) _ (fun i hi m m' h => ?_) ⟨evalLines_view hw h, hf⟩
  · unfold evalPoint
    rw [hw.pkind]
    split_ifs
    · exact ⟨rhsPoint_view hw i h.1, h.2⟩
    · exact h

theorem rates_view (hw : Similar o S S') {old old' m m' : Mem Q FL FP FR FB} (h0 : ViewMem o S S' old old') (h : ViewMem o S S' m m') :
    ViewRate o S (rates S old m) (rates S' old' m') := by
  refine ⟨fun k hk j hj => ?_, fun i hi hm => ?_, fun i hi hm => ?_, fun b hb hm => ?_⟩
  · have hs : (fun j => S'.sea old'.t ((old'.line k).s.r j)) = fun j => o.water (S.sea old.t ((old.line k).s.r j)) := by
      funext j
      rw [h0.t, (h0.line k).s, ← hw.sea]
      rfl
    simp only [rates, hw.nl, hw.lineN, hs]
    rw [if_pos ⟨hk, hj⟩, if_pos ⟨hk, hj⟩, (h0.line k).s, (hw.lineF k _ _).1]
    rfl
  · simp only [rates, hw.np, hw.pkind]
    rw [if_pos ⟨hi, hm⟩, if_pos ⟨hi, hm⟩, (h.point i).rd, (h.point i).F, hw.pointA]
    rfl
  · have hR := h.rod i
    have hk : S.rkind i ≠ .FIXED := by
      intro he
      rw [he] at hm
      exact hm
    have hq := hR.quat.2 hk
    simp only [rates, hw.nr, hw.rkind]
    rw [if_pos hi, if_pos hi]
    cases hk : S.rkind i with
    | COUPLED => rw [hk] at hm; exact hm.elim
    | FIXED => rw [hk] at hm; exact hm.elim
    | FREE =>
      dsimp only
      rw [hR.vel, hR.w, hq, hR.F, hw.quatA, hw.rodA]
      rfl
    | PINNED =>
      dsimp only
      rw [hR.w, hq, hR.F, hw.quatA, (h0.rod i).acc, hw.pinA]
      simp [View.rate6, vel_zero, acc_zero]
    | CPLDPIN =>
      dsimp only
      rw [hR.w, hq, hR.F, hw.quatA, (h0.rod i).acc, hw.pinA]
      simp [View.rate6, vel_zero, acc_zero]
  · have hB := h.body b
    simp only [rates, hw.nb, hw.bkind]
    rw [if_pos hb, if_pos hb]
    cases hk : S.bkind b with
    | COUPLED => rw [hk] at hm; exact hm.elim
    | FIXED => rw [hk] at hm; exact hm.elim
    | FREE =>
      dsimp only
      rw [hB.vel, hB.w, hB.quat, hB.F, hw.quatB, hw.bodyA]
      rfl
    | CPLDPIN =>
      dsimp only
      rw [hB.w, hB.quat, hB.F, hw.quatB, hB.acc, hw.bodyPinA]
      simp [View.rate6, vel_zero]

/-! ## Calls -/

theorem newVes_view (hw : Similar o S S') {dt : ℝ} {T : Q →ₗ[ℝ] Q} {x x' : (V × V) × (V × V)}
    (hx : SameCourse o S S' T x x') {v v' : (V × V) × (V × V) × (V × V)} (h : SameVes o S S' T v v') : SameVes o S S' T (newVes dt x v) (newVes (o.tim * dt) x' v') := by
  refine ⟨hx, ?_⟩
  have e1 := h.course.vel
  have e2 := h.course.spin
  dsimp only [newVes] at e1 e2 ⊢
  simp only [Prod.smul_mk, Prod.smul_fst, Prod.smul_snd, Prod.fst_sub, Prod.snd_sub]
  apply Prod.ext
  · show (1 / (o.tim * dt)) • (x'.2.1 - v'.2.1.1) = _
    rw [hx.vel, e1, ← vel_sub, div_vel hw.tim.ne']
  · show (1 / (o.tim * dt)) • (x'.2.2 - v'.2.1.2) = _
    rw [hx.spin, e2, ← spin_sub, div_spin hw.tim.ne']

theorem newHeads_view (hw : Similar o S S') {dt : ℝ} {x x' : (V × V) × (V × V)} (hx : SameHead o x x')
    {v v' : (V × V) × (V × V) × (V × V)} (h : SameHeads o v v') : SameHeads o (newHeads dt x v) (newHeads (o.tim * dt) x' v') := by
  refine ⟨⟨hx.place, hx.vel⟩, ?_⟩
  have e1 := h.head.vel
  dsimp only [newHeads] at e1 ⊢
  rw [hx.vel, e1, ← vel_sub, div_vel hw.tim.ne']

theorem initiate_view (hw : Similar o S S') {x x' : Asked} (hx : ViewAsked o S S' x x') {m m' : Mem Q FL FP FR FB}
    (h : ViewMem o S S' m m') : ViewMem o S S' (initiate S x m) (initiate S' x' m') := by
  unfold initiate
  dsimp only
  rw [hw.nb, hw.nr, hw.np]
  refine fold_view _ (fun i hi m m' h => ?_) (fold_view _ (fun i hi m m' h => ?_) (fold_view _ (fun b hb m m' h => ?_) h))
  · unfold initPoint
    rw [hw.pkind]
    by_cases hk : S.pkind i = .COUPLED
    · simp only [if_pos hk]
      have hP := h.point i
      exact ⟨h.t, h.line, view_update (P := fun i => ViewPoint o (S.pkind i)) h.point i
        ⟨hP.r, hP.rd, fun _ => hx.point i (List.mem_range.1 hi) hk, hP.F⟩, h.rod, h.body, h.ground, h.ground'⟩
    · simp only [if_neg hk]
      exact h
  · have hR := h.rod i
    unfold initRod
    rw [hw.rkind]
    cases hk : S.rkind i with
    | FREE => exact h
    | PINNED => exact h
    | FIXED => exact h
    | COUPLED =>
      refine passRod_view hw i (setRod_view i h ?_)
      refine ⟨hR.pos, hR.quat, hR.vel, hR.w, hR.q, hR.r, hR.rd, hR.acc, fun _ => ?_, fun hn => ?_, hR.F⟩
      · dsimp only
        rw [hx.dt]
        exact newVes_view hw (hx.rod i (List.mem_range.1 hi) hk) (hR.ves hk)
      · rw [hk] at hn
        cases hn
    | CPLDPIN =>
      refine setRod_view i h ?_
      refine ⟨hR.pos, hR.quat, hR.vel, hR.w, hR.q, hR.r, hR.rd, hR.acc, fun hn => ?_, fun _ => ?_, hR.F⟩
      · rw [hk] at hn
        cases hn
      · dsimp only
        rw [hx.dt]
        exact newHeads_view hw (hx.rodPin i (List.mem_range.1 hi) hk) (hR.heads hk)
  · have hB := h.body b
    unfold initBody
    rw [hw.bkind]
    cases hk : S.bkind b with
    | FREE => exact h
    | FIXED => exact h
    | COUPLED =>
      refine setBody_view h b ⟨hB.pos, hB.quat, hB.vel, hB.w, hB.orMat, hB.acc, fun _ => ?_, fun hn => ?_, hB.F⟩
      · dsimp only
        rw [hx.dt]
        exact newVes_view hw (hx.body b (List.mem_range.1 hb) hk) (hB.ves hk)
      · rw [hk] at hn
        cases hn
    | CPLDPIN =>
      refine setBody_view h b ⟨hB.pos, hB.quat, hB.vel, hB.w, hB.orMat, hB.acc, fun hn => ?_, fun _ => ?_, hB.F⟩
      · rw [hk] at hn
        cases hn
      · dsimp only
        rw [hx.dt]
        exact newHeads_view hw (hx.bodyPin b (List.mem_range.1 hb) hk) (hB.heads hk)

/-! ## Schemes -/

theorem rate_smul (x : ℝ) (a : V × V) : o.rate (x • a) = x • o.rate a := by
  simp [View.rate, vel_smul, acc_smul]

theorem rate_add (a b : V × V) : o.rate (a + b) = o.rate a + o.rate b := by
  simp [View.rate, vel_add, acc_add]

theorem rate6_smul (T : Q →ₗ[ℝ] Q) (x : ℝ) (a : (V × Q) × (V × V)) : o.rate6 T (x • a) = x • o.rate6 T a := by
  simp only [View.rate6, Prod.smul_fst, Prod.smul_snd, vel_smul, acc_smul, spinAcc_smul, map_smul, Prod.smul_mk, smul_comm x]

theorem rate6_add (T : Q →ₗ[ℝ] Q) (a b : (V × Q) × (V × V)) : o.rate6 T (a + b) = o.rate6 T a + o.rate6 T b := by
  simp [View.rate6, vel_add, acc_add, spinAcc_add]

theorem state_move (ht : o.tim ≠ 0) (x : ℝ) (a b : V × V) :
    (o.place a.1, o.vel a.2) + (o.tim * x) • o.rate b = (o.place (a + x • b).1, o.vel (a + x • b).2) := by
  apply Prod.ext
  · exact place_move ht x a.1 b.1
  · show o.vel a.2 + (o.tim * x) • o.acc b.2 = _
    rw [tim_acc ht, ← vel_add]
    rfl

theorem state6_move (ht : o.tim ≠ 0) (T : Q →ₗ[ℝ] Q) (x : ℝ) (a b : (V × Q) × (V × V)) :
    ((o.place a.1.1, T a.1.2), (o.vel a.2.1, o.spin a.2.2)) + (o.tim * x) • o.rate6 T b =
      ((o.place (a + x • b).1.1, T (a + x • b).1.2), (o.vel (a + x • b).2.1, o.spin (a + x • b).2.2)) := by
  refine Prod.ext (Prod.ext ?_ ?_) (Prod.ext ?_ ?_)
  · exact place_move ht x a.1.1 b.1.1
  · show T a.1.2 + (o.tim * x) • (1 / o.tim) • T b.1.2 = T (a.1.2 + x • b.1.2)
    rw [smul_smul, map_add, map_smul]
    congr 2
    field_simp
  · show o.vel a.2.1 + (o.tim * x) • o.acc b.2.1 = _
    rw [tim_acc ht, ← vel_add]
    rfl
  · show o.spin a.2.2 + (o.tim * x) • o.spinAcc b.2.2 = _
    rw [tim_spinAcc ht, ← spin_add]
    rfl

theorem view_zero : ViewRate o S 0 0 := by
  have e : o.rate 0 = 0 := by simp [View.rate, vel_zero, acc_zero]
  have e6 : ∀ T, o.rate6 T 0 = 0 := fun T => by simp [View.rate6, vel_zero, acc_zero, View.spinAcc]
  exact ⟨fun _ _ _ _ => e.symm, fun _ _ _ => e.symm, fun _ _ _ => (e6 _).symm, fun _ _ _ => (e6 _).symm⟩

theorem view_add (a a' b b' : State Q) (ha : ViewRate o S a a') (hb : ViewRate o S b b') : ViewRate o S (a + b) (a' + b') := by
  refine ⟨fun k hk j hj => ?_, fun i hi hm => ?_, fun i hi hm => ?_, fun i hi hm => ?_⟩
  · show a'.1 k j + b'.1 k j = _
    rw [ha.line k hk j hj, hb.line k hk j hj, ← rate_add]
    rfl
  · show a'.2.1 i + b'.2.1 i = _
    rw [ha.point i hi hm, hb.point i hi hm, ← rate_add]
    rfl
  · show a'.2.2.1 i + b'.2.2.1 i = _
    rw [ha.rod i hi hm, hb.rod i hi hm, ← rate6_add]
    rfl
  · show a'.2.2.2 i + b'.2.2.2 i = _
    rw [ha.body i hi hm, hb.body i hi hm, ← rate6_add]
    rfl

theorem view_smul (x : ℝ) (a a' : State Q) (ha : ViewRate o S a a') : ViewRate o S (x • a) (x • a') := by
  refine ⟨fun k hk j hj => ?_, fun i hi hm => ?_, fun i hi hm => ?_, fun i hi hm => ?_⟩
  · show x • a'.1 k j = _
    rw [ha.line k hk j hj, ← rate_smul]
    rfl
  · show x • a'.2.1 i = _
    rw [ha.point i hi hm, ← rate_smul]
    rfl
  · show x • a'.2.2.1 i = _
    rw [ha.rod i hi hm, ← rate6_smul]
    rfl
  · show x • a'.2.2.2 i = _
    rw [ha.body i hi hm, ← rate6_smul]
    rfl

theorem view_move (hw : Similar o S S') (x : ℝ) (a a' b b' : State Q) (ha : ViewState o S a a') (hb : ViewRate o S b b') :
    ViewState o S (a + x • b) (a' + (o.tim * x) • b') := by
  have ht := hw.tim.ne'
  refine ⟨fun k hk j hj => ?_, fun i hi hm => ?_, fun i hi hm => ?_, fun i hi hm => ?_⟩
  · show a'.1 k j + (o.tim * x) • b'.1 k j = _
    rw [ha.line k hk j hj, hb.line k hk j hj, state_move ht]
    rfl
  · show a'.2.1 i + (o.tim * x) • b'.2.1 i = _
    rw [ha.point i hi hm, hb.point i hi hm, state_move ht]
    rfl
  · show a'.2.2.1 i + (o.tim * x) • b'.2.2.1 i = _
    rw [ha.rod i hi hm, hb.rod i hi hm, state6_move ht]
    rfl
  · show a'.2.2.2 i + (o.tim * x) • b'.2.2.2 i = _
    rw [ha.body i hi hm, hb.body i hi hm, state6_move ht]
    rfl

theorem machine_view (hw : Similar o S S') (hok : ∀ q, o.ok q) (hfit : ∀ a, o.fit a) :
    Relate.Alike o.tim (fun _ => True) (machine S) (machine S') (ViewState o S) (ViewRate o S) (ViewMem o S S') where
  zero := view_zero
  add := view_add
  smul := view_smul
  move := view_move hw
  update t tl e e' m m' he h := update_view hw t tl he ⟨fun _ _ _ => hok _, fun _ _ _ => hok _⟩ h
  rate m m' h _ := rates_view hw h (evaluate_view hw h fun _ _ => hfit _)
  eval m m' h _ := evaluate_view hw h fun _ _ => hfit _
  next m m' h := h
  okU _ _ _ _ _ := trivial
  okE _ _ := trivial
  okN _ _ := trivial

/-- The same, of the first simulation with a record of whether it meets attitudes or axes for which the formulas are not known. -/
theorem watched_view (hw : Similar o S S') :
    Relate.Alike o.tim (fun p => ¬ p.2) (watch (OkState o S) (FitMem o S) (machine S)) (machine S') (ViewState o S) (ViewRate o S)
      (fun p m' => ¬ p.2 → ViewMem o S S' p.1 m') where
  zero := view_zero
  add := view_add
  smul := view_smul
  move := view_move hw
  update t tl e e' p m' he h hn := by
    have hn' : ¬ (p.2 ∨ ¬ OkState o S e) := hn
    push Not at hn'
    exact update_view hw t tl he hn'.2 (h hn'.1)
  rate p m' h hn := by
    have hn' : ¬ (p.2 ∨ ¬ FitMem o S p.1) := hn
    push Not at hn'
    exact rates_view hw (h hn'.1) (evaluate_view hw (h hn'.1) hn'.2)
  eval p m' h hn _ := by
    have hn' : ¬ (p.2 ∨ ¬ FitMem o S p.1) := hn
    push Not at hn'
    exact evaluate_view hw (h hn'.1) hn'.2
  next p m' h := h
  okU t tl e p h h' := h (Or.inl h')
  okE p h h' := h (Or.inl h')
  okN p h := h

theorem aux_view (hw : Similar o S S') {E : Each Q} (hE : EachSame o E) (conv conv' : State Q × State Q → State Q × State Q → Bool) (fr : Fresh) :
    Relate.AuxAlike o.tim (E.aux conv fr) (E.aux conv' fr) (ViewState o S) (ViewRate o S) := by
  refine ⟨fun _ _ => rfl, ?_, ?_, ?_, ?_⟩
  · intro ga be a a' b b' h ha hb
    refine ⟨fun k hk j hj => ?_, fun i hi hm => ?_, fun i hi hm => ?_, fun i hi hm => ?_⟩ <;> simp only [Each.aux]
    · rw [ha.line k hk j hj, hb.line k hk j hj, hE.newmark]
    · rw [ha.point i hi hm, hb.point i hi hm, hE.newmark]
    · rw [ha.rod i hi hm, hb.rod i hi hm, hE.newmark6 _ (.inl rfl)]
    · rw [ha.body i hi hm, hb.body i hi hm, hE.newmark6 _ (.inr ⟨i, rfl⟩)]
  · intro a a' b b' ta h ha hb
    refine ⟨fun k hk j hj => ?_, fun i hi hm => ?_, fun i hi hm => ?_, fun i hi hm => ?_⟩ <;> simp only [Each.aux]
    · rw [ha.line k hk j hj, hb.line k hk j hj, hE.wilson]
    · rw [ha.point i hi hm, hb.point i hi hm, hE.wilson]
    · rw [ha.rod i hi hm, hb.rod i hi hm, hE.wilson6 _ (.inl rfl)]
    · rw [ha.body i hi hm, hb.body i hi hm, hE.wilson6 _ (.inr ⟨i, rfl⟩)]
  · intro a a' b b' ha hb
    refine ⟨fun k hk j hj => ?_, fun i hi hm => ?_, fun i hi hm => ?_, fun i hi hm => ?_⟩ <;> simp only [Each.aux] <;> split_ifs
    · exact ha.line k hk j hj
    · exact hb.line k hk j hj
    · exact ha.point i hi hm
    · exact hb.point i hi hm
    · exact ha.rod i hi hm
    · exact hb.rod i hi hm
    · exact ha.body i hi hm
    · exact hb.body i hi hm
  · intro x a a' b b' ha hb
    refine ⟨fun k hk j hj => ?_, fun i hi hm => ?_, fun i hi hm => ?_, fun i hi hm => ?_⟩ <;> simp only [Each.aux]
    · show E.ssub (a'.1 k j) ((o.tim * x) • b'.1 k j) = _
      rw [ha.line k hk j hj, hb.line k hk j hj, hE.ssub]
      rfl
    · show E.ssub (a'.2.1 i) ((o.tim * x) • b'.2.1 i) = _
      rw [ha.point i hi hm, hb.point i hi hm, hE.ssub]
      rfl
    · show E.ssub6 (a'.2.2.1 i) ((o.tim * x) • b'.2.2.1 i) = _
      rw [ha.rod i hi hm, hb.rod i hi hm, hE.ssub6 _ (.inl rfl)]
      rfl
    · show E.ssub6 (a'.2.2.2 i) ((o.tim * x) • b'.2.2.2 i) = _
      rw [ha.body i hi hm, hb.body i hi hm, hE.ssub6 _ (.inr ⟨i, rfl⟩)]
      rfl

end MD.Whole
