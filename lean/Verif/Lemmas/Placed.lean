import Verif.Spec.Placed
import Verif.Lemmas.Valued

/-!
# What is asked stays asked during a call, and where `Update` puts rods, with and without length
-/

set_option linter.unusedSimpArgs false
set_option linter.unusedSectionVars false
set_option linter.unusedVariables false
set_option linter.unnecessarySeqFocus false

namespace MD.Whole

open MD.Mooring Matrix
open MD.Moored (Kind)

variable {Q FL FP FR FB Wt : Type} {S : System Q FL FP FR FB Wt}

/-- What points and rods have been given. -/
def heard (m : Mem Q FL FP FR FB) := ((fun i => (m.point i).ves), fun i => (m.rod i).ves)

theorem heard_movePoint (i : ℕ) (x xd : V) (m : Mem Q FL FP FR FB) : heard (movePoint S i x xd m) = heard m := by
  refine Prod.ext (funext fun j => ?_) rfl
  by_cases h : j = i
  · subst h; simp [heard, movePoint]
  · simp [heard, movePoint, Function.update_of_ne h]

theorem heard_aside {m m' : Mem Q FL FP FR FB} (h : aside m' = aside m) (hp : m'.point = m.point) : heard m' = heard m := by
  refine Prod.ext ?_ (funext fun j => ?_)
  · simp only [heard, hp]
  · exact congrArg (fun x : (V × V) × ((V × V) × (V × V) × (V × V)) × FR => x.2.1) (congrFun (congrArg (fun x => x.2.2) h) j)

theorem heard_passBody (b : Option ℕ) (B : Body Q FB) (m : Mem Q FL FP FR FB) : heard (passBody S b B m) = heard m := by
  unfold passBody
  exact (foldl_same heard _ _ (fun m a _ => heard_aside (aside_rodKin _ _ _ _ _ m) (rodKin_rest _ _ _ _ _ m)) _).trans
    (foldl_same heard _ _ (fun m a _ => heard_movePoint _ _ _ m) m)

theorem heard_setRod (i : ℕ) (f : Rod Q FR → Rod Q FR) (hf : ∀ r, (f r).ves = r.ves) (m : Mem Q FL FP FR FB) :
    heard (setRod i f m) = heard m := by
  refine Prod.ext rfl (funext fun j => ?_)
  by_cases h : j = i
  · subst h; simp [heard, setRod, hf]
  · simp [heard, setRod, Function.update_of_ne h]

theorem heard_passRod (i : ℕ) (m : Mem Q FL FP FR FB) : heard (passRod S i m) = heard m :=
  heard_aside (aside_passRod i m) rfl

theorem heard_update (t tl : ℝ) (e : State Q) (m : Mem Q FL FP FR FB) : heard (update S t tl e m) = heard m := by
  rw [update_phases]
  show heard (List.foldl (statePoint S e.2.1) _ _) = _
  rw [foldl_same heard (statePoint S e.2.1) _ fun m i _ => by
    unfold statePoint
    split_ifs
    · exact heard_movePoint _ _ _ m
    · rfl]
  rw [foldl_same heard (stateRod S e.2.2.1) _ fun m i _ => by
    have hs : ∀ m : Mem Q FL FP FR FB, heard (setRod i (settle S i) m) = heard m := fun m =>
      heard_setRod i _ (fun r => by unfold settle; split_ifs <;> rfl) m
    unfold stateRod
    cases S.rkind i with
    | FREE => exact (hs _).trans ((heard_passRod _ _).trans (heard_setRod i _ (by intro r; rfl) m))
    | PINNED => exact (hs _).trans ((heard_passRod _ _).trans (heard_setRod i _ (by intro r; rfl) m))
    | CPLDPIN => exact (hs _).trans ((heard_passRod _ _).trans (heard_setRod i _ (by intro r; rfl) m))
    | COUPLED => rfl
    | FIXED => rfl]
  rw [foldl_same heard (stateBody S e.2.2.2) _ fun m b _ => by
    unfold stateBody
    cases S.bkind b with
    | FREE => exact (heard_passBody _ _ _).trans rfl
    | CPLDPIN => exact (heard_passBody _ _ _).trans rfl
    | COUPLED => rfl
    | FIXED => rfl]
  rw [foldl_same heard (fairPoint S tl) _ fun m i _ => by
    unfold fairPoint
    split_ifs
    · exact heard_movePoint _ _ _ m
    · rfl]
  rw [foldl_same heard (fairRod S tl) _ fun m i _ => by
    unfold fairRod
    cases S.rkind i with
    | FREE => rfl
    | PINNED => rfl
    | CPLDPIN => exact heard_setRod i _ (by intro r; rfl) m
    | COUPLED => exact (heard_passRod _ _).trans (heard_setRod i _ (by intro r; rfl) m)
    | FIXED => rfl]
  rw [foldl_same heard (fairBody S tl) _ fun m b _ => by
    unfold fairBody
    cases S.bkind b with
    | FREE => rfl
    | CPLDPIN => rfl
    | COUPLED => exact (heard_passBody _ _ _).trans rfl
    | FIXED => rfl]
  exact (heard_passBody _ _ _).trans rfl

theorem heard_evaluate (m : Mem Q FL FP FR FB) : heard (evaluate S m) = heard m := by
  have h := orders_forces (S := S) m
  rw [evaluate_eq, heard_passBody]
  exact Prod.ext (congrArg (fun x => x.1) h) (congrArg (fun x => x.2.1) h)

/-- What is given to bodies and rods and points in a call, and where fixed bodies are: the same from the beginning of the call to
its end. -/
def standing (S : System Q FL FP FR FB Wt) (m : Mem Q FL FP FR FB) :=
  (heard m, m.ground.ves, (fun b : { b // b < S.nb } => (m.body b).ves), fun b : { b // b < S.nb ∧ S.bkind b = .FIXED } =>
    ((m.body b).pos, (m.body b).quat, (m.body b).orMat, (m.body b).vel, (m.body b).w))

theorem standing_update (t tl : ℝ) (e : State Q) (m : Mem Q FL FP FR FB) : standing S (update S t tl e m) = standing S m := by
  refine Prod.ext (heard_update t tl e m) (Prod.ext ?_ (Prod.ext (funext fun b => ?_) (funext fun b => ?_)))
  · simp only [standing]
    rw [(settled_rest t tl e m).1]
    rfl
  · simp only [standing]
    rw [settled_body t tl e m b b.2]
    unfold bodyTo
    cases S.bkind b <;> rfl
  · simp only [standing]
    rw [settled_body t tl e m b b.2.1, b.2.2]
    rfl

theorem standing_evaluate (m : Mem Q FL FP FR FB) : standing S (evaluate S m) = standing S m := by
  have h := orders_forces (S := S) m
  refine Prod.ext (heard_evaluate m) (Prod.ext ?_ (Prod.ext (funext fun b => ?_) (funext fun b => ?_)))
  · simp only [standing]
    rw [evaluate_eq, (passBody_body _ _ _).2]
    exact congrArg Body.ves (congrArg (fun x => x.2.2.2.1) h)
  · simp only [standing]
    rw [evaluate_eq, (passBody_body _ _ _).1]
    exact congrArg Prod.snd (congrFun (congrArg (fun x => x.2.2.1) h) b.1)
  · simp only [standing]
    rw [evaluate_eq, (passBody_body _ _ _).1, forces_body b (fun hc => by
      rcases hc with ⟨-, hc⟩
      exact hc b.2.2) m]

/-! ## Rods -/

/-- Place, rotation and velocities of a rod. -/
def poseOf (R : Rod Q FR) := (R.pos, R.quat, R.vel, R.w)

theorem poseOf_passRod (i : ℕ) (m : Mem Q FL FP FR FB) : poseOf ((passRod S i m).rod i) = poseOf (m.rod i) := by
  simp only [passRod, Function.update_self, rodEnds]
  split_ifs <;> rfl

/-- What a rod that is coupled is told, with or without length. -/
def fairPose (S : System Q FL FP FR FB Wt) (tl : ℝ) (i : ℕ) (p : (V × Q × V × V) × ((V × V) × (V × V) × (V × V))) : V × Q × V × V :=
  match S.rkind i with
  | .COUPLED => ((S.pose (p.2.1 + tl • p.2.2.1)).1, (S.pose (p.2.1 + tl • p.2.2.1)).2, p.2.2.1.1, p.2.2.1.2)
  | .CPLDPIN => (p.2.1.1 + tl • p.2.2.1.1, p.1.2.1, p.2.2.1.1, p.1.2.2.2)
  | _ => p.1

/-- What a rod has in its state, with or without length. -/
def statePose (S : System Q FL FP FR FB Wt) (x : (V × Q) × (V × V)) (i : ℕ) (p : V × Q × V × V) : V × Q × V × V :=
  match S.rkind i with
  | .FREE => (x.1.1, (turned S i x).1, x.2.1, (turned S i x).2)
  | .PINNED | .CPLDPIN => (p.1, (turned S i x).1, p.2.2.1, (turned S i x).2)
  | _ => p

theorem fairRods_pose (tl : ℝ) (i : ℕ) (hi : i < S.nr) (m : Mem Q FL FP FR FB) :
    poseOf (((List.range S.nr).foldl (fairRod S tl) m).rod i) = fairPose S tl i (poseOf (m.rod i), (m.rod i).ves) := by
  refine foldl_once (fairRod S tl) _ List.nodup_range (List.mem_range.mpr hi) (fun m => poseOf (m.rod i))
    (fun m => (poseOf (m.rod i), (m.rod i).ves)) (fairPose S tl i)
    (fun m => ?_) (fun c _ hc m => by rw [fairRod_other tl i m hc.symm]) (fun c _ hc m => by rw [fairRod_other tl i m hc.symm]) m
  unfold fairRod fairPose
  cases S.rkind i with
  | COUPLED => dsimp only; rw [poseOf_passRod, setRod_self]; rfl
  | CPLDPIN => dsimp only; rw [setRod_self]; rfl
  | _ => rfl

theorem settle_pose (i : ℕ) (R : Rod Q FR) : poseOf (settle S i R) =
    (R.pos, if S.rodN i = 0 then S.one else R.quat, R.vel, if S.rodN i = 0 then 0 else R.w) := by
  unfold settle
  by_cases h : S.rodN i = 0
  · simp [h, poseOf]
  · simp [h, Nat.pos_of_ne_zero h, poseOf]

theorem stateRods_pose (e : ℕ → (V × Q) × (V × V)) (i : ℕ) (hi : i < S.nr) (m : Mem Q FL FP FR FB) :
    poseOf (((List.range S.nr).foldl (stateRod S e) m).rod i) = statePose S (e i) i (poseOf (m.rod i)) := by
  refine foldl_once (stateRod S e) _ List.nodup_range (List.mem_range.mpr hi) (fun m => poseOf (m.rod i))
    (fun m => poseOf (m.rod i)) (statePose S (e i) i)
    (fun m => ?_) (fun c _ hc m => by rw [stateRod_other i m e hc.symm]) (fun c _ hc m => by rw [stateRod_other i m e hc.symm]) m
  have key : ∀ f : Rod Q FR → Rod Q FR, poseOf ((setRod i (settle S i) (passRod S i (setRod i f m))).rod i) =
      ((f (m.rod i)).pos, if S.rodN i = 0 then S.one else (f (m.rod i)).quat, (f (m.rod i)).vel,
        if S.rodN i = 0 then 0 else (f (m.rod i)).w) := by
    intro f
    have h := poseOf_passRod (S := S) i (setRod i f m)
    simp only [poseOf, Prod.mk.injEq] at h
    obtain ⟨h1, h2, h3, h4⟩ := h
    rw [setRod_self, settle_pose, h1, h2, h3, h4, setRod_self]
  unfold stateRod statePose turned
  cases S.rkind i with
  | FREE => dsimp only; rw [key]; split_ifs <;> rfl
  | PINNED => dsimp only; rw [key]; split_ifs <;> rfl
  | CPLDPIN => dsimp only; rw [key]; split_ifs <;> rfl
  | _ => rfl

/-- A rod that is on no body after `Update`. -/
theorem update_pose (t tl : ℝ) (e : State Q) (m : Mem Q FL FP FR FB) (i : ℕ) (hi : i < S.nr) (h : ∀ b, ¬ OnR S b i) :
    poseOf ((update S t tl e m).rod i) = statePose S (e.2.2.1 i) i (fairPose S tl i (poseOf (m.rod i), (m.rod i).ves)) := by
  rw [update_phases]
  show poseOf ((List.foldl (statePoint S e.2.1) _ _).rod i) = _
  rw [statePoints_rod, stateRods_pose _ _ hi, stateBodies_rod_out _ _ _ fun b _ _ => h _, fairPoints_rod, fairRods_pose _ _ hi,
    fairBodies_rod_out _ _ _ fun b _ _ => h _, ph1_rod_out t m _ (h none)]

/-- The rotation of a pinned rod after `Update`. -/
theorem update_turned (t tl : ℝ) (e : State Q) (m : Mem Q FL FP FR FB) (i : ℕ) (hi : i < S.nr) (hk : S.rkind i = .PINNED) :
    (((update S t tl e m).rod i).quat, ((update S t tl e m).rod i).w) = turned S i (e.2.2.1 i) := by
  have h := stateRods_pose e.2.2.1 i hi ((List.range S.nb).foldl (stateBody S e.2.2.2) ((List.range S.np).foldl (fairPoint S tl)
      ((List.range S.nr).foldl (fairRod S tl) ((List.range S.nb).foldl (fairBody S tl) (ph1 S t m)))))
  rw [← statePoints_rod (S := S) _ e.2.1] at h
  simp only [statePose, hk] at h
  have h' : poseOf ((update S t tl e m).rod i) = _ := h
  simp only [poseOf, Prod.mk.injEq] at h'
  exact Prod.ext h'.2.1 h'.2.2.2

end MD.Whole
