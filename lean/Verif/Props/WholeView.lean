import Verif.Lemmas.Watch

/-!
# C99, C108: with bodies and rods, neither the origin nor the directions of the axes nor the units matter
-/

set_option linter.unusedSimpArgs false
set_option linter.unusedSectionVars false
set_option linter.unusedVariables false
set_option linter.unnecessarySeqFocus false

namespace MD.Whole

open MD.Mooring Matrix View
open MD.Moored (Kind)

variable {Q FL FP FR FB Wt : Type} [AddCommGroup Q] [Module ℝ Q] {o : View Q FL FP FR FB Wt} {S S' : System Q FL FP FR FB Wt}

theorem simulation_view (hw : Similar o S S') (hok : ∀ q, o.ok q) (hfit : ∀ a, o.fit a) {E : Each Q} (hE : EachSame o E)
    (conv conv' : State Q × State Q → State Q × State Q → Bool) (fr : Fresh)
    (sc : Time.Scheme ℝ) (hsc : Relate.NotAnderson sc ∨ Relate.Ends (E.aux conv fr) (E.aux conv' fr) (ViewRate o S)) (dtM0 : ℝ) (fuel : ℕ)
    (calls calls' : List Asked)
    (hc : List.Forall₂ (ViewAsked o S S') calls calls') (s s' e : Time.Sim ℝ (State Q) (Mem Q FL FP FR FB))
    (h : ViewSim o S S' s s')
    (he : calls.foldlM (call S (E.aux conv fr) sc dtM0 fuel) s = some e) :
    ∃ e', calls'.foldlM (call S' (E.aux conv' fr) sc (o.tim * dtM0) fuel) s' = some e' ∧ ViewSim o S S' e e' := by
  have hM := machine_view hw hok hfit
  have hA := aux_view hw hE conv conv' fr
  induction hc generalizing s s' with
  | nil =>
    cases he
    exact ⟨s', rfl, h⟩
  | @cons x x' l l' hx _ ih =>
    rw [List.foldlM_cons] at he
    cases h1 : call S (E.aux conv fr) sc dtM0 fuel s x with
    | none => rw [h1] at he; cases he
    | some e1 =>
      rw [h1] at he
      have key : ∃ e1', call S' (E.aux conv' fr) sc (o.tim * dtM0) fuel s' x' = some e1' ∧ ViewSim o S S' e1 e1' := by
        unfold call at h1 ⊢
        have hd : x'.dt ≤ 0 ↔ x.dt ≤ 0 := by
          rw [hx.dt]
          exact ⟨fun h => not_lt.1 fun h' => absurd (mul_pos hw.tim h') (not_lt.2 h), fun h => mul_nonpos_of_nonneg_of_nonpos hw.tim.le h⟩
        by_cases h0 : x.dt ≤ 0
        · rw [if_pos h0] at h1
          rw [if_pos (hd.2 h0)]
          cases h1
          exact ⟨s', rfl, h⟩
        · rw [if_neg h0] at h1
          rw [if_neg (fun h => h0 (hd.1 h))]
          split at h1
          · rename_i e1' hs hr
            cases h1
            have hb := initiate_view hw hx h.m
            obtain ⟨-, e2, h2, h3⟩ := Relate.same_call hw.tim hM hA sc hsc rfl fuel hx.dt
              (s := { s with m := initiate S x s.m }) (s' := { s' with m := initiate S' x' s'.m })
              ⟨h.t, h.tl, h.n, fun k hk => hk ▸ h.r, h.rd, hb⟩ _ _ hr trivial
            rw [h2]
            exact ⟨e2, rfl, ⟨h3.t, h3.tl, h3.n, h3.r 0 rfl, h3.rd, h3.m⟩⟩
          · cases h1
      obtain ⟨e1', h2, h3⟩ := key
      obtain ⟨e', h6, h7⟩ := ih e1 e1' h3 he
      refine ⟨e', ?_, h7⟩
      rw [List.foldlM_cons, h2]
      exact h6

/-- The schemes that do not use the predictors of Newmark and Wilson, and do not stop when residues are small. -/
def Plain : Time.Scheme ℝ → Prop
  | .anderson _ _ => False
  | .newmark _ _ _ => False
  | .wilson _ _ => False
  | _ => True

/-- The operations without the predictors. -/
def Each.plain (E : Each Q) : Each Q :=
  { E with newmark := fun _ _ x _ _ => x, newmark6 := fun _ _ x _ _ => x, wilson := fun x _ _ _ => x, wilson6 := fun x _ _ _ => x }

theorem plain_step {K E M : Type} [Field K] [AddCommGroup E] [Module K E] (mc : Time.Machine K E M) (ax : Time.Aux K E) (f : K → K → E → E → K → E)
    (g : E → E → K → K → E) (sc : Time.Scheme K)
    (hsc : match sc with | .anderson _ _ => False | .newmark _ _ _ => False | .wilson _ _ => False | _ => True) :
    Time.stepOf mc ax sc = Time.stepOf mc { ax with newmark := f, wilson := g } sc := by
  cases sc with
  | anderson => exact hsc.elim
  | newmark => exact hsc.elim
  | wilson => exact hsc.elim
  | _ => rfl

theorem plain_call (E : Each Q) (conv : State Q × State Q → State Q × State Q → Bool) (fr : Fresh) {sc : Time.Scheme ℝ} (hsc : Plain sc) :
    call S (E.aux conv fr) sc = call S (E.plain.aux conv fr) sc := by
  funext dtM0 fuel s x
  unfold call
  have e := plain_step (machine S) (E.aux conv fr) (E.plain.aux conv fr).newmark (E.plain.aux conv fr).wilson sc
    (by cases sc <;> exact hsc)
  rw [e]
  generalize machine S = mc
  rfl

theorem place_move_neg (ht : o.tim ≠ 0) (x : ℝ) (a b : V × V) :
    (o.place a.1, o.vel a.2) - (o.tim * x) • o.rate b = (o.place (a - x • b).1, o.vel (a - x • b).2) := by
  have := state_move ht (-x) a b
  rw [mul_neg, neg_smul, ← sub_eq_add_neg, neg_smul, ← sub_eq_add_neg] at this
  exact this

theorem code_ssub (ht : o.tim ≠ 0) (pose : V × V → V × Q) (relax : ℕ → ℕ → ℝ) : EachSame o (Each.code pose relax).plain :=
  ⟨fun _ _ _ _ _ => rfl, fun _ _ _ _ _ _ _ => rfl, fun _ _ _ _ => rfl, fun _ _ _ _ _ _ => rfl, fun x y z => place_move_neg ht z x y,
    fun T _ x y z => state6_move ht T z x y⟩

theorem watched_simulation (hw : Similar o S S') {E : Each Q} (hE : EachSame o E)
    (conv conv' : State Q × State Q → State Q × State Q → Bool) (fr : Fresh) (sc : Time.Scheme ℝ) (hsc : Relate.NotAnderson sc) (dtM0 : ℝ) (fuel : ℕ)
    (calls calls' : List Asked) (hc : List.Forall₂ (ViewAsked o S S') calls calls')
    (s s' : Time.Sim ℝ (State Q) (Mem Q FL FP FR FB)) (h : ViewSim o S S' s s') (w : Time.Sim ℝ (State Q) (Mem Q FL FP FR FB × Prop))
    (he : calls.foldlM (watchedCall o S (E.aux conv fr) sc dtM0 fuel) ⟨s.t, s.tl, s.r, s.rd, s.n, (s.m, False)⟩ = some w) (hn : ¬ w.m.2) :
    ∃ e e', calls.foldlM (call S (E.aux conv fr) sc dtM0 fuel) s = some e ∧ e.m = w.m.1 ∧
      calls'.foldlM (call S' (E.aux conv' fr) sc (o.tim * dtM0) fuel) s' = some e' ∧ ViewSim o S S' e e' := by
  obtain ⟨e, h1, h2, h3, h4, h5, h6, h7⟩ := watched_faithful _ sc dtM0 fuel calls s False w he
  rw [watchedCall_callOn] at he
  obtain ⟨-, e', g1, g2⟩ := same_calls hw.tim (watched_view hw) (aux_view hw hE conv conv' fr) sc (.inl hsc) (ini := fun x p => (initiate S x p.1, p.2)) (ini' := initiate S')
    (fun x x' m m' hx hm hn => initiate_view hw hx (hm hn)) (fun x x' hx => hx.dt) (fun _ _ h => h) dtM0 fuel hc ⟨s.t, s.tl, s.r, s.rd, s.n, (s.m, False)⟩ w s'
    ⟨h.t, h.tl, h.n, fun k hk => hk ▸ h.r, h.rd, fun _ => h.m⟩ he hn
  refine ⟨e, e', h1, h7, by rw [call_callOn]; exact g1, ?_⟩
  exact ⟨by rw [g2.t, h2], by rw [g2.tl, h3], by rw [g2.n, h4], by rw [h5]; exact g2.r 0 rfl, fun k => by rw [h6]; exact g2.rd k,
    by rw [h7]; exact g2.m hn⟩

theorem plain_watched (E : Each Q) (conv : State Q × State Q → State Q × State Q → Bool) (fr : Fresh) {sc : Time.Scheme ℝ} (hsc : Plain sc) :
    watchedCall o S (E.aux conv fr) sc = watchedCall o S (E.plain.aux conv fr) sc := by
  funext dtM0 fuel s x
  unfold watchedCall
  dsimp only
  have e := plain_step (watch (OkState o S) (FitMem o S) (machine S)) (E.aux conv fr) (E.plain.aux conv fr).newmark (E.plain.aux conv fr).wilson sc
    (by cases sc <;> exact hsc)
  rw [e]
  generalize machine S = mc
  rfl

/-- C99, C108: a system of bodies, rods, points and lines that is written down with another origin, other axes and other units of length and
time goes through the same states, call by call, with every explicit scheme and the implicit Euler scheme: at the end of the calls all places,
velocities, attitudes and all that the evaluations leave are the same, written down in the other way.  Asked for are the same motions, and
time steps that are the same.  Rods fixed to bodies may spin about their axis.  The first simulation is given with a record of whether it has
met attitudes or axes of rods for which the formulas depend on how things are written down; it has not. -/
theorem C99_whole_partial (hw : Similar o S S') (pose : V × V → V × Q) (relax : ℕ → ℕ → ℝ)
    (conv conv' : State Q × State Q → State Q × State Q → Bool) (fr : Fresh) (sc : Time.Scheme ℝ) (hsc : Plain sc) (dtM0 : ℝ) (fuel : ℕ)
    (calls calls' : List Asked) (hc : List.Forall₂ (ViewAsked o S S') calls calls')
    (s s' : Time.Sim ℝ (State Q) (Mem Q FL FP FR FB)) (h : ViewSim o S S' s s') (w : Time.Sim ℝ (State Q) (Mem Q FL FP FR FB × Prop))
    (he : calls.foldlM (watchedCall o S ((Each.code pose relax).aux conv fr) sc dtM0 fuel) ⟨s.t, s.tl, s.r, s.rd, s.n, (s.m, False)⟩ = some w)
    (hn : ¬ w.m.2) :
    ∃ e e', calls.foldlM (call S ((Each.code pose relax).aux conv fr) sc dtM0 fuel) s = some e ∧ e.m = w.m.1 ∧
      calls'.foldlM (call S' ((Each.code pose relax).aux conv' fr) sc (o.tim * dtM0) fuel) s' = some e' ∧ ViewSim o S S' e e' := by
  rw [plain_watched _ conv fr hsc] at he
  rw [plain_call _ conv fr hsc, plain_call _ conv' fr hsc]
  exact watched_simulation hw (code_ssub hw.tim.ne' pose relax) conv conv' fr sc (by cases sc <;> trivial) dtM0 fuel
    calls calls' hc s s' h w he hn

theorem Similar.right (hw : Similar o S S') (hR : o.R = 1) : o.sgn = 1 := by
  have := congrFun (hw.cross ![1, 0, 0] ![0, 1, 0]) 2
  rw [hR, one_mulVec, one_mulVec, one_mulVec] at this
  simpa [cross_apply] using this.symm

theorem code_shift (hl : o.len = 1) (ht : o.tim = 1) (hR : o.R = 1) (hs : o.sgn = 1) (hq : o.turn = LinearMap.id) (hqb : ∀ b, o.turnB b = LinearMap.id) (pose : V × V → V × Q) (relax : ℕ → ℕ → ℝ) :
    EachSame o (Each.code pose relax) := by
  have ht0 : o.tim ≠ 0 := by rw [ht]; exact one_ne_zero
  have e : o.rate = id := by
    funext x
    simp [View.rate, View.vel, View.acc, hl, ht, hR]
  have e6 : ∀ T, o.Turns T → o.rate6 T = id := by
    intro T hT
    have hT' : T = LinearMap.id := by
      rcases hT with rfl | ⟨b, rfl⟩
      · exact hq
      · exact hqb b
    funext x
    simp [View.rate6, View.vel, View.acc, View.spinAcc, hl, ht, hR, hs, hT']
  refine ⟨?_, ?_, ?_, ?_, fun x y z => place_move_neg ht0 z x y, fun T _ x y z => state6_move ht0 T z x y⟩
  · intro g b x y h
    rw [e, ht, one_mul]
    rfl
  · intro T hT g b x y h
    rw [e6 T hT, ht, one_mul]
    rfl
  · intro x y ta h
    rw [e, ht, one_mul, one_mul]
    rfl
  · intro T hT x y ta h
    rw [e6 T hT, ht, one_mul, one_mul]
    rfl

/-- C99: where the origin is does not matter with any scheme but that of Anderson. -/
theorem C99_whole_shift_partial (hl : o.len = 1) (ht : o.tim = 1) (hR : o.R = 1) (hq : o.turn = LinearMap.id) (hqb : ∀ b, o.turnB b = LinearMap.id) (hw : Similar o S S') (hok : ∀ q, o.ok q)
    (hfit : ∀ a, o.fit a) (pose : V × V → V × Q) (relax : ℕ → ℕ → ℝ) (conv conv' : State Q × State Q → State Q × State Q → Bool) (fr : Fresh)
    (sc : Time.Scheme ℝ) (hsc : Relate.NotAnderson sc) (dtM0 : ℝ) (fuel : ℕ) (calls calls' : List Asked)
    (hc : List.Forall₂ (ViewAsked o S S') calls calls') (s s' e : Time.Sim ℝ (State Q) (Mem Q FL FP FR FB)) (h : ViewSim o S S' s s')
    (he : calls.foldlM (call S ((Each.code pose relax).aux conv fr) sc dtM0 fuel) s = some e) :
    ∃ e', calls'.foldlM (call S' ((Each.code pose relax).aux conv' fr) sc dtM0 fuel) s' = some e' ∧
      (∀ i, (e'.m.point i).r = (e.m.point i).r + o.shift ∧ (e'.m.point i).rd = (e.m.point i).rd) ∧
      (∀ i, (e'.m.rod i).pos = (e.m.rod i).pos + o.shift ∧ (e'.m.rod i).vel = (e.m.rod i).vel ∧ (e'.m.rod i).w = (e.m.rod i).w ∧
        S'.mat (e'.m.rod i).quat *ᵥ S'.q0 i = S.mat (e.m.rod i).quat *ᵥ S.q0 i) ∧
      (∀ b, (e'.m.body b).pos = (e.m.body b).pos + o.shift ∧ (e'.m.body b).quat = (e.m.body b).quat ∧ (e'.m.body b).vel = (e.m.body b).vel ∧
        (e'.m.body b).w = (e.m.body b).w) ∧
      (∀ k j, (e'.m.line k).s.r j = (e.m.line k).s.r j + o.shift ∧ (e'.m.line k).s.rd j = (e.m.line k).s.rd j) ∧
      ViewSim o S S' e e' := by
  obtain ⟨e', h1, h2⟩ := simulation_view hw hok hfit (code_shift hl ht hR (hw.right hR) hq hqb pose relax) conv conv' fr sc (.inl hsc) dtM0 fuel calls calls' hc s s' e h he
  rw [ht, one_mul] at h1
  have hp : ∀ x, o.place x = x + o.shift := fun x => by simp [View.place, hl, hR]
  have hv : ∀ x, o.vel x = x := fun x => by simp [View.vel, hl, ht, hR]
  have hs : ∀ x, o.spin x = x := fun x => by simp [View.spin, ht, hR, hw.right hR]
  refine ⟨e', h1, fun i => ?_, fun i => ?_, fun b => ?_, fun k j => ?_, h2⟩
  · exact ⟨by rw [(h2.m.point i).r, hp], by rw [(h2.m.point i).rd, hv]⟩
  · refine ⟨by rw [(h2.m.rod i).pos, hp], by rw [(h2.m.rod i).vel, hv], by rw [(h2.m.rod i).w, hs], ?_⟩
    rw [(h2.m.rod i).quat.1, hR, one_mulVec]
  · exact ⟨by rw [(h2.m.body b).pos, hp], by rw [(h2.m.body b).quat, hqb]; rfl, by rw [(h2.m.body b).vel, hv], by rw [(h2.m.body b).w, hs]⟩
  · exact ⟨by rw [(h2.m.line k).s]; exact hp _, by rw [(h2.m.line k).s]; exact hv _⟩

/-- C108: in other units of length and time all places, velocities and rotations come out in these units. -/
theorem C108_whole_partial (hR : o.R = 1) (hs0 : o.shift = 0) (hq : o.turn = LinearMap.id) (hqb : ∀ b, o.turnB b = LinearMap.id) (hw : Similar o S S') (hok : ∀ q, o.ok q)
    (hfit : ∀ a, o.fit a) (pose : V × V → V × Q) (relax : ℕ → ℕ → ℝ) (conv conv' : State Q × State Q → State Q × State Q → Bool) (fr : Fresh)
    (sc : Time.Scheme ℝ) (hsc : Plain sc) (dtM0 : ℝ) (fuel : ℕ) (calls calls' : List Asked)
    (hc : List.Forall₂ (ViewAsked o S S') calls calls') (s s' e : Time.Sim ℝ (State Q) (Mem Q FL FP FR FB)) (h : ViewSim o S S' s s')
    (he : calls.foldlM (call S ((Each.code pose relax).aux conv fr) sc dtM0 fuel) s = some e) :
    ∃ e', calls'.foldlM (call S' ((Each.code pose relax).aux conv' fr) sc (o.tim * dtM0) fuel) s' = some e' ∧
      (∀ i, (e'.m.point i).r = o.len • (e.m.point i).r ∧ (e'.m.point i).rd = (o.len / o.tim) • (e.m.point i).rd) ∧
      (∀ i, (e'.m.rod i).pos = o.len • (e.m.rod i).pos ∧ (e'.m.rod i).vel = (o.len / o.tim) • (e.m.rod i).vel ∧
        (e'.m.rod i).w = (1 / o.tim) • (e.m.rod i).w ∧ S'.mat (e'.m.rod i).quat *ᵥ S'.q0 i = S.mat (e.m.rod i).quat *ᵥ S.q0 i) ∧
      (∀ b, (e'.m.body b).pos = o.len • (e.m.body b).pos ∧ (e'.m.body b).quat = (e.m.body b).quat ∧
        (e'.m.body b).vel = (o.len / o.tim) • (e.m.body b).vel ∧ (e'.m.body b).w = (1 / o.tim) • (e.m.body b).w) ∧
      (∀ k j, (e'.m.line k).s.r j = o.len • (e.m.line k).s.r j ∧ (e'.m.line k).s.rd j = (o.len / o.tim) • (e.m.line k).s.rd j) ∧
      ViewSim o S S' e e' := by
  rw [plain_call _ conv fr hsc] at he
  rw [plain_call _ conv' fr hsc]
  obtain ⟨e', h1, h2⟩ := simulation_view hw hok hfit (code_ssub hw.tim.ne' pose relax) conv conv' fr sc (.inl (by cases sc <;> trivial)) dtM0 fuel
    calls calls' hc s s' e h he
  have hp : ∀ x, o.place x = o.len • x := fun x => by simp [View.place, hs0, hR]
  have hv : ∀ x, o.vel x = (o.len / o.tim) • x := fun x => by simp [View.vel, hR]
  have hs : ∀ x, o.spin x = (1 / o.tim) • x := fun x => by simp [View.spin, hR, hw.right hR]
  refine ⟨e', h1, fun i => ?_, fun i => ?_, fun b => ?_, fun k j => ?_, h2⟩
  · exact ⟨by rw [(h2.m.point i).r, hp], by rw [(h2.m.point i).rd, hv]⟩
  · refine ⟨by rw [(h2.m.rod i).pos, hp], by rw [(h2.m.rod i).vel, hv], by rw [(h2.m.rod i).w, hs], ?_⟩
    rw [(h2.m.rod i).quat.1, hR, one_mulVec]
  · exact ⟨by rw [(h2.m.body b).pos, hp], by rw [(h2.m.body b).quat, hqb]; rfl, by rw [(h2.m.body b).vel, hv], by rw [(h2.m.body b).w, hs]⟩
  · exact ⟨by rw [(h2.m.line k).s]; exact hp _, by rw [(h2.m.line k).s]; exact hv _⟩

/-! ## A case

A coupled body with a point and a rod on it, a free rod, an anchor and a free point; lines that are springs in water that moves; from an
origin elsewhere, with axes turned by a quarter, in half metres and thirds of a second. -/

/-- A quarter of a turn. -/
def quarter : Matrix (Fin 3) (Fin 3) ℝ := !![0, -1, 0; 1, 0, 0; 0, 0, 1]

/-- The system, with `len` and `tim` units in a metre and a second, axes `R` and origin. -/
noncomputable def yard (len tim : ℝ) (R : Matrix (Fin 3) (Fin 3) ℝ) (shift : V) : System (Matrix (Fin 3) (Fin 3) ℝ) V V (V × V) (V × V) V where
  nb := 1
  nr := 2
  np := 3
  nl := 2
  bkind _ := .COUPLED
  rkind i := if i = 0 then .FIXED else .FREE
  pkind i := if i = 2 then .FREE else .FIXED
  pts
    | none => [(0, len • (R *ᵥ ![10, 0, -50]) + shift)]
    | some 0 => [(1, len • ![1, 0, 0])]
    | some _ => []
  rods
    | some 0 => [(0, len • ![0, 0, -1], ![0, 0, -1])]
    | _ => []
  ends
    | 0 => [(0, .BOTTOM)]
    | 1 => [(0, .TOP)]
    | 2 => [(1, .BOTTOM)]
    | _ => []
  endsA
    | 1 => [(1, .TOP)]
    | _ => []
  endsB _ := []
  rodN _ := 2
  rodLen _ := len * 5
  q0 _ := ![0, 0, 1]
  lineN _ := 3
  mat q := q
  pose x := (x.1, Mat.rotZ (x.2 2))
  between a b := vecMulVec b a
  one := 1
  sea _ _ := (len / tim) • (R *ᵥ ![1, 2, 0])
  moment _ _ F _ _ := F
  unit _ := 0
  lineF _ s wt := (fun j => (1 / tim ^ 2) • (s.r (j + 1) - s.r j + (s.r (j - 1) - s.r j)) + (1 / tim) • (wt j - s.rd j),
    (1 / tim ^ 2) • (s.r 1 - s.r 0))
  pointF _ _ v w l := (1 / tim) • (w - v) + (l.map Prod.fst).sum
  pointA F := F
  rodF _ _ w _ _ rd wt lA lB := ((1 / tim) • (wt 0 - rd 0) + (lA.map Prod.fst).sum + (lB.map Prod.fst).sum, -(1 / tim) • w)
  rodA F := F
  pinA F _ := F.2
  quatA w q := Matrix.of (fun i j => (w ⨯₃ fun k => q k j) i)
  bodyF _ _ _ _ w _ _ lP lR := ((lP.map Prod.snd).sum + (lR.map fun a => a.2.2.1).sum, -(1 / tim) • w)
  bodyA F := F
  bodyPinA F _ := F.2

/-- The other way to write it down. -/
noncomputable def askew : View (Matrix (Fin 3) (Fin 3) ℝ) V V (V × V) (V × V) V where
  len := 2
  tim := 3
  R := quarter
  shift := ![7, 8, 0]
  turn := LinearMap.mulLeft ℝ quarter
  own _ := 1
  turnB _ := LinearMap.mulLeft ℝ quarter
  line x := (2 / 3 ^ 2 : ℝ) • (quarter *ᵥ x)
  point x := (2 / 3 ^ 2 : ℝ) • (quarter *ᵥ x)
  rod x := ((2 / 3 ^ 2 : ℝ) • (quarter *ᵥ x.1), (1 / 3 ^ 2 : ℝ) • (quarter *ᵥ x.2))
  body x := ((2 / 3 ^ 2 : ℝ) • (quarter *ᵥ x.1), (1 / 3 ^ 2 : ℝ) • (quarter *ᵥ x.2))
  water v := (2 / 3 : ℝ) • (quarter *ᵥ v)
  mom := 2 / 3 ^ 2

theorem quarter_cross (a b : V) : (quarter *ᵥ a) ⨯₃ (quarter *ᵥ b) = quarter *ᵥ (a ⨯₃ b) := by
  ext i
  fin_cases i <;> simp [quarter, cross_apply, mulVec, dotProduct, Fin.sum_univ_three] <;> ring

theorem quarter_rotZ (a : ℝ) : Mat.rotZ (a + Real.pi / 2) = quarter * Mat.rotZ a := by
  ext i j
  fin_cases i <;> fin_cases j <;>
    simp [quarter, Mat.rotZ, Matrix.mul_apply, Fin.sum_univ_three, Real.cos_add_pi_div_two, Real.sin_add_pi_div_two]

theorem sum_turned (c : ℝ) {α : Type} (f : α → V) (l : List α) :
    (l.map fun a => c • (quarter *ᵥ f a)).sum = c • (quarter *ᵥ (l.map f).sum) := by
  induction l with
  | nil => simp
  | cons a l ih => rw [List.map_cons, List.map_cons, List.sum_cons, List.sum_cons, ih, mulVec_add, smul_add]

theorem yard_rate (w : V) (q : Matrix (Fin 3) (Fin 3) ℝ) : (yard 2 3 quarter ![7, 8, 0]).quatA (askew.spin w) (LinearMap.mulLeft ℝ quarter q) =
    (1 / askew.tim) • LinearMap.mulLeft ℝ quarter ((yard 1 1 1 0).quatA w q) := by
  ext i j
  have := quarter_cross w (fun k => q k j)
  have e : (fun k => (quarter * q) k j) = quarter *ᵥ fun k => q k j := by
    ext k
    simp [Matrix.mul_apply, mulVec, dotProduct]
  simp only [yard, askew, View.spin, LinearMap.mulLeft_apply, Matrix.of_apply, Matrix.smul_apply]
  rw [e, LinearMap.map_smul₂, this]
  simp [Matrix.mul_apply, mulVec, dotProduct]

theorem yard_similar : Similar askew (yard 1 1 1 0) (yard 2 3 quarter ![7, 8, 0]) where
  len := by norm_num [askew]
  tim := by norm_num [askew]
  hand := one_mul 1
  cross a b := (quarter_cross a b).trans (one_smul ℝ _).symm
  nb := rfl
  nr := rfl
  np := rfl
  nl := rfl
  bkind := rfl
  rkind := rfl
  pkind := rfl
  pts := by
    intro b
    rcases b with _ | b
    · simp [yard, askew]
    · simp [yard]
  rods := by
    intro b
    rcases b with _ | b
    · simp [yard, askew]
    · simp [yard]
  groundPts := by simp [yard, askew, View.place]
  groundRods := by simp [yard]
  ends := rfl
  endsA := rfl
  endsB := rfl
  rodN := rfl
  rodLen := by
    intro i
    simp [yard, askew]
  lineN := rfl
  there := by
    intro b a ha
    rcases b with _ | _ | b <;> simp [yard] at ha
    subst ha
    simp [yard]
  mat := fun i q _ => by
    show (quarter * q) *ᵥ _ = quarter *ᵥ (q *ᵥ _)
    rw [mulVec_mulVec]
    rfl
  orth := fun _ => by simp [askew]
  matB := fun _ q _ => by
    show quarter * q = quarter * q * 1ᵀ
    rw [transpose_one, mul_one]
  posed := fun _ => trivial
  between := by
    intro b a ha hk q _
    generalize (yard 1 1 1 0).mat q *ᵥ a.2.2 = d
    simp only [yard, askew]
    rw [vecMulVec_mulVec, vecMulVec_mulVec]
    ext j
    simp [mulVec, dotProduct, Fin.sum_univ_three]
  one := by
    intro i _ h
    simp [yard] at h
  ground := by simp [yard, Mat.rotZ]; ext i j; fin_cases i <;> fin_cases j <;> rfl
  sea := by
    intro t x
    simp [yard, askew]
  moment := fun _ _ _ _ _ => rfl
  unit := by
    intro v
    simp [yard]
  lineF := by
    intro k s wt
    refine ⟨fun j => ?_, ?_⟩
    · simp only [yard, askew, View.shape, View.place, View.vel, View.acc, mulVec_add, mulVec_sub, one_pow, div_one, one_smul]
      module
    · simp only [yard, askew, View.shape, View.place, View.vel, View.acc, mulVec_add, mulVec_sub, one_pow, div_one, one_smul]
      module
  pointF := by
    intro i x v w l
    simp only [yard, askew, View.place, View.vel, View.got, List.map_map, Function.comp_def, mulVec_add, mulVec_sub, one_pow, div_one, one_smul]
    rw [sum_turned]
    module
  pointA := fun _ => rfl
  rodF := by
    intro i hi q q' w a r rd wt lA lB hq _
    simp only [yard, askew, View.place, View.vel, View.spin, View.got, List.map_map, Function.comp_def, mulVec_add, mulVec_sub, mulVec_neg,
      one_pow, div_one, one_smul, neg_smul]
    rw [sum_turned, sum_turned]
    refine Prod.ext ?_ ?_ <;> dsimp only <;> module
  rodA := fun _ => rfl
  pinA := fun _ _ => rfl
  quatA := yard_rate
  quatB _ := yard_rate
  bodyF := by
    intro b x q v w M wt lP lR
    simp only [yard, askew, View.place, View.vel, View.spin, List.map_map, Function.comp_def, mulVec_add, mulVec_sub, mulVec_neg,
      one_pow, div_one, one_smul, neg_smul]
    rw [sum_turned, sum_turned]
    refine Prod.ext ?_ ?_ <;> dsimp only <;> module
  bodyA := fun _ => rfl
  bodyPinA := fun _ _ => rfl

/-- What is asked for in a call: the body drifts and turns about the vertical. -/
noncomputable def drifting : Asked := ⟨fun _ => ((![1, 2, 3], ![0, 0, 1]), (![1, 0, 0], ![0, 0, 1])), fun _ => 0, fun _ => 0, 1 / 2⟩

/-- The same, in the other way. -/
noncomputable def drifting' : Asked :=
  ⟨fun _ => ((askew.place ![1, 2, 3], ![0, 0, 1 + Real.pi / 2]), (askew.vel ![1, 0, 0], askew.spin ![0, 0, 1])), fun _ => 0, fun _ => 0, 3 / 2⟩

/-- A memory written down in the other way, with what was asked for of bodies. -/
noncomputable def View.mem (o : View Q FL FP FR FB Wt) (ves : ℕ → (V × V) × (V × V) × (V × V)) (m : Mem Q FL FP FR FB) : Mem Q FL FP FR FB where
  t := o.tim * m.t
  line k := ⟨o.shape (m.line k).s, o.line (m.line k).F⟩
  point i := ⟨o.place (m.point i).r, o.vel (m.point i).rd, (o.place (m.point i).ves.1, o.vel (m.point i).ves.2), o.point (m.point i).F⟩
  rod i := ⟨o.place (m.rod i).pos, o.turn (m.rod i).quat, o.vel (m.rod i).vel, o.spin (m.rod i).w, o.R *ᵥ (m.rod i).q,
    fun j => o.place ((m.rod i).r j), fun j => o.vel ((m.rod i).rd j), (o.acc (m.rod i).acc.1, o.spinAcc (m.rod i).acc.2), 0, o.rod (m.rod i).F⟩
  body b := ⟨o.place (m.body b).pos, o.turnB b (m.body b).quat, o.vel (m.body b).vel, o.spin (m.body b).w, o.R * (m.body b).orMat * (o.own b)ᵀ,
    (o.acc (m.body b).acc.1, o.spinAcc (m.body b).acc.2), ves b, o.body (m.body b).F⟩
  ground := m.ground

theorem mem_view (hw : Similar o S S') (m : Mem Q FL FP FR FB) (hg : IsGround m.ground) (ves : ℕ → (V × V) × (V × V) × (V × V))
    (hb : ∀ b, S.bkind b = .COUPLED → SameVes o S S' (o.turnB b) (m.body b).ves (ves b)) (hp : ∀ b, S.bkind b ≠ .CPLDPIN)
    (hr : ∀ i, S.rkind i ≠ .COUPLED ∧ S.rkind i ≠ .CPLDPIN) (hok : ∀ i, o.ok (m.rod i).quat) : ViewMem o S S' m (o.mem ves m) :=
  ⟨rfl, fun k => ⟨rfl, rfl⟩, fun i => ⟨rfl, rfl, fun _ => rfl, rfl⟩,
    fun i => ⟨rfl, ⟨by show S'.mat (o.turn _) *ᵥ _ = _; rw [hw.mat _ _ (hok i)], fun _ => rfl⟩, rfl, rfl, rfl, fun _ => rfl, fun _ => rfl,
      rfl, fun h => absurd h (hr i).1, fun h => absurd h (hr i).2, rfl⟩,
    fun b => ⟨rfl, rfl, rfl, rfl, rfl, rfl, fun h => hb b h, fun h => absurd h (hp b), rfl⟩, hg, hg⟩

/-- The state of the yard at the beginning: all velocities are those of the body. -/
noncomputable def yardStart : Mem (Matrix (Fin 3) (Fin 3) ℝ) V V (V × V) (V × V) where
  t := 0
  line _ := ⟨⟨fun j => ![j, 0, 0], fun _ => 0, .PINNED, .PINNED, 0, 0⟩, 0⟩
  point i := ⟨![i, 1, 0], 0, 0, 0⟩
  rod i := ⟨![i, 2, 0], 1, 0, 0, ![0, 0, 1], fun j => ![i, 2, j], fun _ => 0, 0, 0, 0⟩
  body _ := ⟨![1, 2, 3], Mat.rotZ 1, ![1, 0, 0], ![0, 0, 1], Mat.rotZ 1, 0, ((drifting.body 0).1, (drifting.body 0).2, 0), 0⟩
  ground := ⟨0, 1, 0, 0, 1, 0, 0, 0⟩

theorem drifting_course (b : ℕ) :
    SameCourse askew (yard 1 1 1 0) (yard 2 3 quarter ![7, 8, 0]) (askew.turnB b) (drifting.body b) (drifting'.body b) := by
  refine ⟨fun t => Prod.ext ?_ ?_, rfl, rfl⟩
  · exact place_move (o := askew) (by norm_num [askew]) t _ _
  · have e : (1 + Real.pi / 2) + 3 * t * (askew.spin ![0, 0, 1]) 2 = (1 + t) + Real.pi / 2 := by
      simp [askew, View.spin, quarter, mulVec, dotProduct, Fin.sum_univ_three]
      ring
    show Mat.rotZ ((1 + Real.pi / 2) + 3 * t * (askew.spin ![0, 0, 1]) 2) = quarter * Mat.rotZ (1 + t * 1)
    rw [e, quarter_rotZ, mul_one]

example : ViewAsked askew (yard 1 1 1 0) (yard 2 3 quarter ![7, 8, 0]) drifting drifting' ∧
    ∃ s s' : Time.Sim ℝ (State (Matrix (Fin 3) (Fin 3) ℝ)) (Mem (Matrix (Fin 3) (Fin 3) ℝ) V V (V × V) (V × V)),
      s.m = yardStart ∧ ViewSim askew (yard 1 1 1 0) (yard 2 3 quarter ![7, 8, 0]) s s' := by
  have hr : ∀ i, (yard 1 1 1 0).rkind i ≠ .COUPLED ∧ (yard 1 1 1 0).rkind i ≠ .CPLDPIN := by
    intro i
    simp only [yard]
    split_ifs <;> exact ⟨nofun, nofun⟩
  refine ⟨⟨?_, fun b _ _ => drifting_course b, nofun, fun i _ h => absurd h (hr i).1, fun i _ h => absurd h (hr i).2, ?_⟩, ?_⟩
  · norm_num [drifting, drifting', askew]
  · intro i _ h
    simp only [yard] at h
    split_ifs at h
  · refine ⟨⟨0, 0, fun _ => (fun _ j => (![j, 0, 0], 0), fun i => (![i, 1, 0], 0), fun i => ((![i, 2, 0], 1), 0), 0), 0, 0, yardStart⟩,
      ⟨0, 0, fun _ => (fun _ j => (askew.place ![j, 0, 0], 0), fun i => (askew.place ![i, 1, 0], 0),
        fun i => ((askew.place ![i, 2, 0], askew.turn 1), 0), 0), 0, 0, askew.mem (fun b => ((drifting'.body b).1, (drifting'.body b).2, 0)) yardStart⟩,
      rfl, ⟨(mul_zero _).symm, (mul_zero _).symm, rfl, ⟨?_, ?_, ?_, nofun⟩, fun k => view_zero, ?_⟩⟩
    · intro k _ j _
      exact Prod.ext rfl vel_zero.symm
    · intro i _ _
      exact Prod.ext rfl vel_zero.symm
    · intro i _ _
      exact Prod.ext rfl (Prod.ext vel_zero.symm spin_zero.symm)
    · refine mem_view yard_similar yardStart ⟨rfl, rfl, rfl, rfl, rfl⟩ _ (fun b _ => ⟨drifting_course b, ?_⟩) nofun hr fun _ => trivial
      refine Prod.ext acc_zero.symm ?_
      show (0 : V) = askew.spinAcc 0
      simp [View.spinAcc]

end MD.Whole
