import Verif.Lemmas.Placed
import Verif.Lemmas.Time
import Verif.Props.Seen
import Verif.Props.Connected

/-!
# C112: where everything is after a call
-/

set_option linter.unusedSimpArgs false
set_option linter.unusedVariables false

namespace MD.Whole

open MD.Mooring Matrix
open MD.Moored (Kind)

variable {Q FL FP FR FB Wt : Type} {S : System Q FL FP FR FB Wt}

/-- What `Update` does, object by object: all that moves is put anew, the rest is left alone. -/
theorem C112_update (hS : Sound S) (hN : ∀ i < S.nr, 0 < S.rodN i) (t tl : ℝ) (e : State Q) (m : Mem Q FL FP FR FB)
    (hm : Connected S m) : Settled S t tl e m (update S t tl e m) :=
  settled hS hN t tl e m (C110_update hS t tl e m hm)

/-- The last that a step of any scheme does is to put everything where its state says, at its time. -/
theorem last_update {E M : Type} [AddCommGroup E] [Module ℝ E] (mc : Time.Machine ℝ E M) (ax : Time.Aux ℝ E) (sc : Time.Scheme ℝ) (dt : ℝ)
    (s : Time.Sim ℝ E M) : ∃ m, (Time.stepOf mc ax sc dt s).m =
      mc.update (Time.stepOf mc ax sc dt s).t (Time.stepOf mc ax sc dt s).tl ((Time.stepOf mc ax sc dt s).r 0) m := by
  cases sc <;> exact ⟨_, rfl⟩

/-- The loop over the internal steps ends when the time of the call is over, with a step. -/
theorem subLoop_end {E M : Type} [AddCommGroup E] [Module ℝ E] (mc : Time.Machine ℝ E M) (ax : Time.Aux ℝ E) (sc : Time.Scheme ℝ)
    (dtM0 : ℝ) (h0 : 0 < dtM0) (dt : ℝ) (fuel : ℕ) (target : ℝ) (s e : Time.Sim ℝ E M) (l l' : List ℝ) (ht : s.tl + target = dt) (hp : 0 ≤ target)
    (h : Time.subLoop (ε := Empty) dtM0 (fun x s => .ok (Time.stepOf mc ax sc x s)) fuel target s l = some (.ok e, l')) : e.tl = dt := by
  induction fuel generalizing target s l with
  | zero =>
    unfold Time.subLoop at h
    by_cases hpos : target > 0
    · simp [hpos] at h
    · rw [if_neg hpos] at h
      simp only [Option.some.injEq, Prod.mk.injEq, Except.ok.injEq] at h
      rw [← h.1, ← ht, le_antisymm (not_lt.mp hpos) hp, add_zero]
  | succ f ih =>
    unfold Time.subLoop at h
    by_cases hpos : target > 0
    · rw [if_pos hpos] at h
      dsimp only at h
      refine ih _ _ _ ?_ ?_ h
      · rw [(Time.step_time mc ax sc _ s).2, ← ht]
        ring
      · split_ifs with h'
        · linarith
        · linarith
    · rw [if_neg hpos] at h
      simp only [Option.some.injEq, Prod.mk.injEq, Except.ok.injEq] at h
      rw [← h.1, ← ht, le_antisymm (not_lt.mp hpos) hp, add_zero]

/-- A call with a positive time step ends with an `Update` at its end, in which everything that was asked is as it was asked. -/
theorem call_last [AddCommGroup Q] [Module ℝ Q] (ax : Time.Aux ℝ (State Q)) (sc : Time.Scheme ℝ) (dtM0 : ℝ) (fuel : ℕ) (x : Asked)
    (s e : Time.Sim ℝ (State Q) (Mem Q FL FP FR FB)) (hx : 0 < x.dt) (he : call S ax sc dtM0 fuel s x = some e) :
    ∃ m, e.m = update S e.t x.dt (e.r 0) m ∧ standing S m = standing S (initiate S x s.m) := by
  unfold call at he
  rw [if_neg (not_le.mpr hx)] at he
  cases hr : Time.outerStep (ε := Empty) dtM0 (Time.next (machine S)) (fun h s => .ok (Time.stepOf (machine S) ax sc h s)) fuel x.dt
      { s with m := initiate S x s.m } with
  | none => rw [hr] at he; cases he
  | some r =>
    obtain ⟨r, l⟩ := r
    rw [hr] at he
    cases r with
    | error e => exact e.elim
    | ok e' =>
      obtain rfl := Option.some.inj he
      have hm : Relate.Remembers (fun m => ¬ standing S m = standing S (initiate S x s.m)) (machine S) :=
        ⟨fun t tl e m h hc => h ((standing_update t tl e m).trans hc), fun m h hc => h ((standing_evaluate m).trans hc), fun m h => h⟩
      have h1 : standing S e'.m = standing S (initiate S x s.m) := by
        by_contra hc
        exact Relate.call_ok hm ax sc dtM0 fuel x.dt _ _ _ hr hc rfl
      have h0 : 0 < dtM0 := by
        by_contra h0
        rw [Time.C06_nonpositive_limit_hangs dtM0 (not_lt.mp h0) _ _ (fun h s => ⟨_, rfl⟩) fuel x.dt hx] at hr
        cases hr
      unfold Time.outerStep at hr
      rw [if_neg (not_le.mpr hx)] at hr
      have h2 := subLoop_end (machine S) ax sc dtM0 h0 x.dt fuel x.dt _ e' [] l (by simp [Time.next]) hx.le hr
      obtain ⟨m, h3⟩ := Time.subLoop_last dtM0 h0 _ (fun s' => ∃ m, s'.m = update S s'.t s'.tl (s'.r 0) m)
        (fun d u u' _ _ hu => by
          obtain rfl := Except.ok.inj hu
          exact last_update (machine S) ax sc d u) fuel x.dt _ e' [] l (Or.inl hx) hr
      rw [h2] at h3
      refine ⟨m, h3, ?_⟩
      rw [← h1, h3, standing_update]

/-- **C112**, after `Update`, if what was given is what was asked. -/
theorem placed_update (hS : Sound S) (x : Asked) (t : ℝ) (st : State Q) (old m : Mem Q FL FP FR FB)
    (hm : Connected S (update S t x.dt st m)) (h : standing S m = standing S (initiate S x old)) :
    Placed S x st old (update S t x.dt st m) := by
  simp only [standing, heard, Prod.mk.injEq] at h
  obtain ⟨⟨hp, hr⟩, hg, hb, hf⟩ := h
  have eB : ∀ b < S.nb, (m.body b).ves = (bodyGiven (S.bkind b) x.dt (x.body b) (old.body b)).ves := fun b hlt => by
    rw [← initiate_body x old b hlt]
    exact congrFun hb ⟨b, hlt⟩
  have eR : ∀ i < S.nr, ∀ f : ((V × V) × (V × V) × (V × V)) → ((V × V) × (V × V) × (V × V)),
      (∀ m : Mem Q FL FP FR FB, heard (initRod S x.dt x.rod m i) = (fun j => (m.point j).ves, Function.update (fun j => (m.rod j).ves) i (f (m.rod i).ves))) →
      (m.rod i).ves = f (old.rod i).ves := by
    intro i hi f hf
    rw [show (m.rod i).ves = _ from congrFun hr i]
    unfold initiate
    dsimp only
    rw [foldl_same (fun m => m.rod i) (initPoint S x.point) _ fun m j _ => congrFun (initPoint_rest _ m j).1 i]
    rw [foldl_once (initRod S x.dt x.rod) _ List.nodup_range (List.mem_range.mpr hi) (fun m => (m.rod i).ves) (fun m => (m.rod i).ves) f
      (fun m => by
        have := congrFun (congrArg Prod.snd (hf m)) i
        simpa [heard] using this) (fun c _ hc m => by
        unfold initRod
        cases S.rkind c with
        | COUPLED => dsimp only; rw [passRod_other hc.symm, setRod_other hc.symm]
        | CPLDPIN => dsimp only; rw [setRod_other hc.symm]
        | _ => rfl) (fun c _ hc m => by
        unfold initRod
        cases S.rkind c with
        | COUPLED => dsimp only; rw [passRod_other hc.symm, setRod_other hc.symm]
        | CPLDPIN => dsimp only; rw [setRod_other hc.symm]
        | _ => rfl)]
    rw [foldl_same (fun m => (m.rod i).ves) (initBody S x.dt x.body) _ fun m j _ => by rw [(initBody_rest _ _ m j).1]]
  have hset : ∀ (i : ℕ) (f : ((V × V) × (V × V) × (V × V)) → ((V × V) × (V × V) × (V × V))) (m : Mem Q FL FP FR FB),
      heard (setRod i (fun R => { R with ves := f R.ves }) m) =
        (fun j => (m.point j).ves, Function.update (fun j => (m.rod j).ves) i (f (m.rod i).ves)) := by
    intro i f m
    refine Prod.ext rfl (funext fun j => ?_)
    by_cases h : j = i
    · subst h; simp [heard, setRod]
    · simp [heard, setRod, Function.update_of_ne h]
  have free : ∀ i, S.rkind i ≠ .FIXED → S.rkind i ≠ .PINNED → ∀ b, ¬ OnR S b i := fun i h1 h2 b ⟨y, hy⟩ =>
    (hS.rodsKind b _ hy).elim h1 h2
  obtain ⟨m', h1, h2⟩ := deep_phases hS t x.dt st m
  refine ⟨fun k hk j h0 hN => ?_, fun i hi hk => ?_, fun i hi hk => ?_, fun b hlt hk => ?_, fun b hlt hk => ?_, fun b hlt hk => ?_,
    fun b hlt hk => ?_, fun b hlt hk => ?_, fun h0 => ?_, fun i hi hk => ?_, fun i hi hk => update_turned t x.dt st m i hi hk, fun i hi hk => ?_,
    fun i hi hk => ?_, hm⟩
  · rw [h1]
    simp only [stateLines, if_pos hk, stateLine]
    have h0' : 1 ≤ j := h0
    simp [h0', hN]
  · rw [settled_pointFree hS t x.dt st m i hi hk]
  · have e := congrFun hp i
    rw [initiate_point x old i hi, if_pos hk] at e
    rw [settled_pointGiven hS t x.dt st m i hi hk, e]
    exact ⟨rfl, rfl⟩
  · rw [settled_body t x.dt st m b hlt, hk]
    rfl
  · rw [settled_body t x.dt st m b hlt, hk]
    simp [bodyTo, eB b hlt, hk, bodyGiven, newVes]
  · rw [settled_body t x.dt st m b hlt, hk]
    simp [bodyTo, eB b hlt, hk, bodyGiven, newHeads]
  · have e := congrFun hf ⟨b, hlt, hk⟩
    simp only [Prod.mk.injEq] at e
    rw [initiate_body x old b hlt, hk] at e
    rw [settled_body t x.dt st m b hlt, hk]
    exact e
  · rw [settled_body t x.dt st m b hlt]
    cases hk' : S.bkind b with
    | FIXED => exact absurd hk' hk
    | _ => rfl
  · rw [(initiate_rest x old).1] at hg
    rw [(settled_rest t x.dt st m).1]
    simp [bodyTo, hg, h0]
  · have e := update_pose t x.dt st m i hi (free i (by rw [hk]; decide) (by rw [hk]; decide))
    simp only [statePose, hk, poseOf, Prod.mk.injEq] at e
    exact ⟨Prod.ext e.1 e.2.2.1, Prod.ext e.2.1 e.2.2.2⟩
  · have e := update_pose t x.dt st m i hi (free i (by rw [hk]; decide) (by rw [hk]; decide))
    have ev := eR i hi (newVes x.dt (x.rod i)) (fun m => by
      unfold initRod
      rw [hk]
      dsimp only
      rw [heard_passRod]
      exact hset i _ m)
    simp only [statePose, fairPose, hk, poseOf, ev, newVes, Prod.mk.injEq] at e
    exact ⟨Prod.ext e.1 e.2.1, Prod.ext e.2.2.1 e.2.2.2⟩
  · have e := update_pose t x.dt st m i hi (free i (by rw [hk]; decide) (by rw [hk]; decide))
    have ev := eR i hi (newHeads x.dt (x.rod i)) (fun m => by
      unfold initRod
      rw [hk]
      exact hset i _ m)
    simp only [statePose, fairPose, hk, poseOf, ev, newHeads, Prod.mk.injEq] at e
    exact ⟨e.1, e.2.2.1, Prod.ext e.2.1 e.2.2.2⟩

/-- **C112**: after every call of `MoorDyn_Step` with a positive time step, with any scheme, everything is where it belongs. -/
theorem C112_call [AddCommGroup Q] [Module ℝ Q] (hS : Sound S) (ax : Time.Aux ℝ (State Q)) (sc : Time.Scheme ℝ) (dtM0 : ℝ) (fuel : ℕ)
    (x : Asked) (s e : Time.Sim ℝ (State Q) (Mem Q FL FP FR FB)) (hs : Connected S s.m) (hx : 0 < x.dt)
    (he : call S ax sc dtM0 fuel s x = some e) : Placed S x (e.r 0) s.m e.m := by
  obtain ⟨m, h1, h2⟩ := call_last ax sc dtM0 fuel x s e hx he
  have hc : Connected S e.m := C110_simulation hS ax sc dtM0 fuel [x] s e hs (by rw [List.foldlM_cons, he]; rfl)
  rw [h1] at hc ⊢
  exact placed_update hS x e.t (e.r 0) s.m m hc h2

/-- What is given to the ground never changes. -/
theorem ground_simulation [AddCommGroup Q] [Module ℝ Q] (ax : Time.Aux ℝ (State Q)) (sc : Time.Scheme ℝ) (dtM0 : ℝ) (fuel : ℕ)
    (calls : List Asked) (s e : Time.Sim ℝ (State Q) (Mem Q FL FP FR FB)) (he : calls.foldlM (call S ax sc dtM0 fuel) s = some e) :
    e.m.ground.ves = s.m.ground.ves :=
  remembers_simulation (fun m => m.ground.ves = s.m.ground.ves)
    (fun t tl e m h => (congrArg (fun x => x.2.1) (standing_update (S := S) t tl e m)).trans h)
    (fun m h => (congrArg (fun x => x.2.1) (standing_evaluate (S := S) m)).trans h)
    (fun x m h => (congrArg Body.ves (initiate_rest x m).1).trans h) ax sc dtM0 fuel calls s e rfl he

/-- **C112**, anchors: a point fixed to the ground is after every call where the input file puts it, at rest. -/
theorem C112_anchor [AddCommGroup Q] [Module ℝ Q] (hS : Sound S) (h1 : S.mat (S.pose (0, 0)).2 = 1) (h2 : (S.pose (0, 0)).1 = 0)
    (ax : Time.Aux ℝ (State Q)) (sc : Time.Scheme ℝ) (dtM0 : ℝ) (fuel : ℕ) (calls : List Asked) (x : Asked)
    (s e : Time.Sim ℝ (State Q) (Mem Q FL FP FR FB)) (hs : Connected S s.m) (hg : s.m.ground.ves = 0) (hx : 0 < x.dt)
    (he : (calls ++ [x]).foldlM (call S ax sc dtM0 fuel) s = some e) (a : ℕ × V) (ha : a ∈ S.pts none) :
    (e.m.point a.1).r = a.2 ∧ (e.m.point a.1).rd = 0 := by
  rw [List.foldlM_append] at he
  cases h : calls.foldlM (call S ax sc dtM0 fuel) s with
  | none => rw [h] at he; cases he
  | some s1 =>
    rw [h] at he
    have he' : call S ax sc dtM0 fuel s1 x = some e := by
      have : [x].foldlM (call S ax sc dtM0 fuel) s1 = some e := he
      rw [List.foldlM_cons] at this
      cases hc : call S ax sc dtM0 fuel s1 x with
      | none => rw [hc] at this; cases this
      | some e1 => rw [hc] at this; exact this
    have hv : s1.m.ground.ves = 0 := (ground_simulation ax sc dtM0 fuel calls s s1 h).trans hg
    have hP := C112_call hS ax sc dtM0 fuel x s1 e (C110_simulation hS ax sc dtM0 fuel calls s s1 hs h) hx he'
    obtain ⟨g1, g2, g3, g4⟩ := hP.ground (by rw [hv]; rfl)
    rw [hv] at g1
    have g5 : e.m.ground.pos = 0 := (congrArg Prod.fst g1).trans h2
    have g6 : e.m.ground.orMat = 1 := by
      rw [g2, show e.m.ground.quat = _ from congrArg Prod.snd g1]
      exact h1
    obtain ⟨p1, p2⟩ := hP.connected.point none a ha
    rw [show e.m.bodyOf none = e.m.ground from rfl] at p1 p2
    rw [p1, p2, g3, g4, g5, g6]
    simp

/-! ## A case -/

/-- In the system of `Props/Connected` the coupled point is after a call where it was told to be, the anchor has not moved, the inner
nodes of the lines and the body are where the state says. -/
example (ax : Time.Aux ℝ (State ℝ)) (sc : Time.Scheme ℝ) (dtM0 : ℝ) (fuel : ℕ) (x : Asked) (t : ℝ) (st : State ℝ)
    (m : Mem ℝ Unit Unit Unit Unit) (s e : Time.Sim ℝ (State ℝ) (Mem ℝ Unit Unit Unit Unit)) (hs : s.m = update hung t 0 st m)
    (hg : m.ground.ves = 0) (hx : x.dt = 1 / 2) (hx2 : x.point 2 = (![1, 2, 3], ![2, 0, 0])) (he : call hung ax sc dtM0 fuel s x = some e) :
    (e.m.point 2).r = ![2, 2, 3] ∧ (e.m.point 1).r = ![10, 0, -50] ∧ (e.m.body 0).pos = ((e.r 0).2.2.2 0).1.1 ∧
      (e.m.line 1).s.r 2 = ((e.r 0).1 1 1).1 ∧ (e.m.line 1).s.r 3 = ![2, 2, 3] := by
  have hc : Connected hung s.m := by
    have h := C110_start hung_sound (fun i hi hk => ?_) (fun i _ hk => ?_) (fun _ => 0) t 0 st m
    · rw [hs]
      simpa [fixBodies, fixBody, hung] using h
    · have hi' : i = 0 ∨ i = 1 ∨ i = 2 := by
        have : i < 3 := hi
        omega
      rcases hi' with rfl | rfl | rfl
      · exact ⟨some 0, _, List.mem_singleton.mpr rfl⟩
      · exact ⟨none, _, List.mem_singleton.mpr rfl⟩
      · simp [hung] at hk
    · simp [hung] at hk
  have hx0 : 0 < x.dt := by rw [hx]; norm_num
  have h := C112_call hung_sound ax sc dtM0 fuel x s e hc hx0 he
  have h2 : (e.m.point 2).r = ![2, 2, 3] := by
    rw [(h.coupledPoint 2 (by simp [hung]) (by simp [hung])).1, hx, hx2]
    funext j
    fin_cases j <;> norm_num
  refine ⟨h2, ?_, ?_, ?_, ?_⟩
  · refine (C112_anchor hung_sound ?_ rfl ax sc dtM0 fuel [] x s e hc ?_ hx0 ?_ (1, ![10, 0, -50]) (by simp [hung])).1
    · ext i j
      fin_cases i <;> fin_cases j <;> simp [hung]
    · rw [hs]
      exact (congrArg (fun x => x.2.1) (standing_update (S := hung) t 0 st m)).trans hg
    · rw [List.nil_append, List.foldlM_cons, he]; rfl
  · exact congrArg (fun x => x.1.1) (h.freeBody 0 (by simp [hung]) rfl)
  · exact congrArg Prod.fst (h.line 1 (by simp [hung]) 2 (by norm_num) (by simp [hung]))
  · obtain ⟨d, hd⟩ := h.connected.holds 2 (by simp [hung]) (1, .TOP) (by simp [hung])
    exact (congrArg Prod.fst hd).trans h2

end MD.Whole
