import Verif.Lemmas.WholeForces
import Verif.Props.Connected

/-!
# C111: the forces that are read are those of one moment, and which forces there are not
-/

set_option linter.unusedSimpArgs false
set_option linter.unusedSectionVars false
set_option linter.unusedVariables false
set_option linter.unnecessarySeqFocus false

namespace MD.Whole

open MD.Mooring Matrix
open MD.Moored (Kind)

variable {Q FL FP FR FB Wt : Type} {S : System Q FL FP FR FB Wt}

/-- The forces in `m` are those that belong to `o`, of every line and of everything whose forces are asked for; and the inner nodes of
such rods are between where the ends were in `o`. -/
structure Together (S : System Q FL FP FR FB Wt) (o m : Mem Q FL FP FR FB) : Prop where
  line : ∀ k < S.nl, (m.line k).F = lineNow S o k
  point : ∀ i, PointCounts S i → (m.point i).F = pointNow S o i
  rod : ∀ i, RodCounts S i → (m.rod i).F = rodNow S o (o.rod i).r i ∧
    ∀ j, 1 ≤ j → j < S.rodN i → (m.rod i).r j = spaced (S.rodN i) (o.rod i).r j ∧ (m.rod i).rd j = spaced (S.rodN i) (o.rod i).rd j
  body : ∀ b, BodyCounts S b → (m.body b).F = bodyNow S o (fun i => (o.rod i).r) b

theorem Together.kept {o m m' : Mem Q FL FP FR FB} (h : Together S o m) (hk : kept S m' = kept S m) : Together S o m' := by
  simp only [Whole.kept, Prod.mk.injEq] at hk
  obtain ⟨h1, h2, h3, h4, -, h5⟩ := hk
  refine ⟨fun k hk => (congrFun h1 k).trans (h.line k hk), fun i hi => (congrFun h2 i).trans (h.point i hi),
    fun i hi => ⟨(congrFun h3 i).trans (h.rod i hi).1, fun j hj hj' => ?_⟩, fun b hb => (congrFun h4 b).trans (h.body b hb)⟩
  have := congrFun (congrFun h5 i) j
  simp only [hj, hj', and_self, if_true, Prod.mk.injEq] at this
  exact ⟨this.1.trans ((h.rod i hi).2 j hj hj').1, this.2.trans ((h.rod i hi).2 j hj hj').2⟩

/-- One evaluation computes the forces of all lines, points, rods and bodies from the places where they are: no force is that of the
evaluation before, whatever the order of the objects is. -/
theorem C111_forces (hl : ∀ h : Holder, ∀ a ∈ h.list S, a.1 < S.nl) (m : Mem Q FL FP FR FB) : Together S m (evaluate S m) := by
  have h := mid_forces hl m
  refine Together.kept ⟨h.force', h.P, fun i hi => ⟨(h.R i hi).1, fun j _ _ => ?_⟩, h.B⟩
    (show kept S (evaluate S m) = kept S (forces S m) from kept_passBody _ _ _)
  rw [(h.R i hi).2.1, (h.R i hi).2.2, straight_eq, straight_eq]
  exact ⟨rfl, rfl⟩

/-- Moving everything to another state, at the end of a step too, changes no force. -/
theorem C111_update (t tl : ℝ) (e : State Q) (o m : Mem Q FL FP FR FB) (h : Together S o m) : Together S o (update S t tl e m) :=
  h.kept (kept_update t tl e m)

@[inherit_doc C111_update]
theorem C111_given (x : Asked) (o m : Mem Q FL FP FR FB) (h : Together S o m) : Together S o (initiate S x m) :=
  h.kept (kept_initiate x m)

theorem remembers_simulation [AddCommGroup Q] [Module ℝ Q] (ok : Mem Q FL FP FR FB → Prop)
    (hu : ∀ t tl e m, ok m → ok (update S t tl e m)) (he : ∀ m, ok m → ok (evaluate S m)) (hi : ∀ x m, ok m → ok (initiate S x m))
    (ax : Time.Aux ℝ (State Q)) (sc : Time.Scheme ℝ) (dtM0 : ℝ)
    (fuel : ℕ) (calls : List Asked) (s e : Time.Sim ℝ (State Q) (Mem Q FL FP FR FB)) (hs : ok s.m)
    (hr : calls.foldlM (call S ax sc dtM0 fuel) s = some e) : ok e.m := by
  have hm : Relate.Remembers (fun m => ¬ ok m) (machine S) :=
    ⟨fun t tl e m h hc => h (hu t tl e m hc), fun m h hc => h (he m hc), fun m h => h⟩
  induction calls generalizing s with
  | nil =>
    cases hr
    exact hs
  | cons x calls ih =>
    rw [List.foldlM_cons] at hr
    cases h1 : call S ax sc dtM0 fuel s x with
    | none => rw [h1] at hr; cases hr
    | some e1 =>
      rw [h1] at hr
      refine ih e1 ?_ hr
      unfold call at h1
      split_ifs at h1 with h0
      · cases h1
        exact hs
      · split at h1
        · rename_i hr'
          cases h1
          by_contra hc
          exact Relate.call_ok hm ax sc dtM0 fuel _ { s with m := initiate S x s.m } _ _ hr' hc (hi x _ hs)
        · cases h1

/-- After any simulation the forces that can be read are all those of one and the same moment, at which everything was connected. -/
theorem C111_simulation [AddCommGroup Q] [Module ℝ Q] (hS : Sound S) (hl : ∀ h : Holder, ∀ a ∈ h.list S, a.1 < S.nl)
    (ax : Time.Aux ℝ (State Q)) (sc : Time.Scheme ℝ) (dtM0 : ℝ)
    (fuel : ℕ) (calls : List Asked) (s e : Time.Sim ℝ (State Q) (Mem Q FL FP FR FB)) (m0 : Mem Q FL FP FR FB)
    (h0 : Connected S m0) (hs : s.m = evaluate S m0)
    (hr : calls.foldlM (call S ax sc dtM0 fuel) s = some e) : ∃ o, Connected S o ∧ Together S o e.m := by
  refine (remembers_simulation (fun m => Connected S m ∧ ∃ o, Connected S o ∧ Together S o m) ?_ ?_ ?_ ax sc dtM0 fuel calls s e ?_ hr).2
  · rintro t tl e m ⟨hm, o, ho, h⟩
    exact ⟨C110_update hS t tl e m hm, o, ho, C111_update t tl e o m h⟩
  · rintro m ⟨hm, -⟩
    exact ⟨C110_forces hS m hm, m, hm, C111_forces hl m⟩
  · rintro x m ⟨hm, o, ho, h⟩
    exact ⟨C110_given hS x m hm, o, ho, C111_given x o m h⟩
  · rw [hs]
    exact ⟨C110_forces hS m0 h0, m0, h0, C111_forces hl m0⟩

/-! ## Forces that are never computed -/

theorem rhsRod_point (wt : ℕ → ℕ → Wt) (j : ℕ) (m : Mem Q FL FP FR FB) : (rhsRod S wt j m).point = m.point := rfl

theorem rhsPoint_other (j i : ℕ) (h : j ≠ i) (m : Mem Q FL FP FR FB) : (rhsPoint S j m).point i = m.point i :=
  Function.update_of_ne (Ne.symm h) _ _

theorem rhsRod_other (wt : ℕ → ℕ → Wt) (j i : ℕ) (h : j ≠ i) (m : Mem Q FL FP FR FB) : (rhsRod S wt j m).rod i = m.rod i :=
  Function.update_of_ne (Ne.symm h) _ _

theorem rhsBody_point (wt : ℕ → ℕ → Wt) (b i : ℕ) (h : ¬ ∃ rel, (i, rel) ∈ S.pts (some b)) (m : Mem Q FL FP FR FB) :
    (rhsBody S wt b m).point i = m.point i := by
  show ((S.rods (some b)).foldl (fun m a => rhsRod S wt a.1 m) ((S.pts (some b)).foldl (fun m a => rhsPoint S a.1 m) m)).point i = _
  rw [foldl_same (fun m => m.point i) (fun m (a : ℕ × V × V) => rhsRod S wt a.1 m) _ (fun m a _ => rfl),
    foldl_same (fun m => m.point i) (fun m (a : ℕ × V) => rhsPoint S a.1 m) _ fun m a ha => rhsPoint_other _ _ ?_ m]
  rintro rfl
  exact h ⟨a.2, ha⟩

theorem rhsBody_rod (wt : ℕ → ℕ → Wt) (b i : ℕ) (h : ¬ ∃ rel, (i, rel) ∈ S.rods (some b)) (m : Mem Q FL FP FR FB) :
    (rhsBody S wt b m).rod i = m.rod i := by
  show ((S.rods (some b)).foldl (fun m a => rhsRod S wt a.1 m) ((S.pts (some b)).foldl (fun m a => rhsPoint S a.1 m) m)).rod i = _
  rw [foldl_same (fun m => m.rod i) (fun m (a : ℕ × V × V) => rhsRod S wt a.1 m) _ fun m a ha => rhsRod_other _ _ _ ?_ m,
    foldl_same (fun m => m.rod i) (fun m (a : ℕ × V) => rhsPoint S a.1 m) _ fun m a ha => rfl]
  rintro rfl
  exact h ⟨a.2, ha⟩

theorem rhsBody_body (wt : ℕ → ℕ → Wt) (b c : ℕ) (h : b ≠ c) (m : Mem Q FL FP FR FB) : (rhsBody S wt b m).body c = m.body c := by
  have h1 : ((S.rods (some b)).foldl (fun m a => rhsRod S wt a.1 m) ((S.pts (some b)).foldl (fun m a => rhsPoint S a.1 m) m)).body =
      m.body := by
    rw [foldl_same (fun m => m.body) (fun m (a : ℕ × V × V) => rhsRod S wt a.1 m) _ (fun m a _ => rfl),
      foldl_same (fun m => m.body) (fun m (a : ℕ × V) => rhsPoint S a.1 m) _ fun m a ha => rfl]
  unfold rhsBody
  dsimp only
  rw [Function.update_of_ne (Ne.symm h), h1]

theorem forces_point (i : ℕ) (h : ¬ PointCounts S i) (m : Mem Q FL FP FR FB) : (forces S m).point i = m.point i := by
  have hP : ∀ j ∈ List.range S.np, S.pkind j ≠ .FIXED → j ≠ i := by
    rintro j hj hk rfl
    exact h (.inl ⟨List.mem_range.mp hj, hk⟩)
  have hB : ∀ b ∈ List.range S.nb, S.bkind b ≠ .FIXED → ¬ ∃ rel, (i, rel) ∈ S.pts (some b) := fun b hb hk hr =>
    h (.inr ⟨b, ⟨List.mem_range.mp hb, hk⟩, hr⟩)
  unfold forces
  dsimp only
  rw [foldl_same (fun m => m.point i) (askBody S (rodWater S m)) _ fun m b hb => by
    unfold askBody
    split_ifs with hk
    · exact rhsBody_point _ _ _ (hB b hb (by rw [hk]; decide)) m
    · rfl]
  rw [foldl_same (fun m => m.point i) (askRod S (rodWater S m)) _ fun m b hb => by
    unfold askRod
    split_ifs with hk <;> rfl]
  rw [foldl_same (fun m => m.point i) (askPoint S) _ fun m b hb => by
    unfold askPoint
    split_ifs with hk
    · exact rhsPoint_other _ _ (hP b hb (by rw [hk]; decide)) m
    · rfl]
  rw [foldl_same (fun m => m.point i) (evalBody S (rodWater S m)) _ fun m b hb => by
    unfold evalBody
    split_ifs with hk
    · exact rhsBody_point _ _ _ (hB b hb (by rcases hk with hk | hk <;> rw [hk] <;> decide)) m
    · rfl]
  rw [foldl_same (fun m => m.point i) (evalRod S (rodWater S m)) _ fun m b hb => by
    unfold evalRod
    cases S.rkind b <;> rfl]
  rw [foldl_same (fun m => m.point i) (evalPoint S) _ fun m b hb => by
    unfold evalPoint
    split_ifs with hk
    · exact rhsPoint_other _ _ (hP b hb (by rw [hk]; decide)) m
    · rfl]
  rfl

theorem forces_rod (i : ℕ) (h : ¬ RodCounts S i) (m : Mem Q FL FP FR FB) : (forces S m).rod i = m.rod i := by
  have hP : ∀ j ∈ List.range S.nr, S.rkind j ≠ .FIXED → j ≠ i := by
    rintro j hj hk rfl
    exact h (.inl ⟨List.mem_range.mp hj, hk⟩)
  have hB : ∀ b ∈ List.range S.nb, S.bkind b ≠ .FIXED → ¬ ∃ rel, (i, rel) ∈ S.rods (some b) := fun b hb hk hr =>
    h (.inr ⟨b, ⟨List.mem_range.mp hb, hk⟩, hr⟩)
  unfold forces
  dsimp only
  rw [foldl_same (fun m => m.rod i) (askBody S (rodWater S m)) _ fun m b hb => by
    unfold askBody
    split_ifs with hk
    · exact rhsBody_rod _ _ _ (hB b hb (by rw [hk]; decide)) m
    · rfl]
  rw [foldl_same (fun m => m.rod i) (askRod S (rodWater S m)) _ fun m b hb => by
    unfold askRod
    split_ifs with hk
    · exact rhsRod_other _ _ _ (hP b hb (by rw [hk]; decide)) m
    · rfl]
  rw [foldl_same (fun m => m.rod i) (askPoint S) _ fun m b hb => by
    unfold askPoint
    split_ifs with hk <;> rfl]
  rw [foldl_same (fun m => m.rod i) (evalBody S (rodWater S m)) _ fun m b hb => by
    unfold evalBody
    split_ifs with hk
    · exact rhsBody_rod _ _ _ (hB b hb (by rcases hk with hk | hk <;> rw [hk] <;> decide)) m
    · rfl]
  rw [foldl_same (fun m => m.rod i) (evalRod S (rodWater S m)) _ fun m b hb => by
    have := hP b hb
    unfold evalRod setRod
    cases hk : S.rkind b with
    | FREE => exact rhsRod_other _ _ _ (this (by rw [hk]; decide)) m
    | PINNED => exact (Function.update_of_ne (this (by rw [hk]; decide)).symm _ _).trans (rhsRod_other _ _ _ (this (by rw [hk]; decide)) m)
    | CPLDPIN => exact (Function.update_of_ne (this (by rw [hk]; decide)).symm _ _).trans (rhsRod_other _ _ _ (this (by rw [hk]; decide)) m)
    | COUPLED => rfl
    | FIXED => rfl]
  rw [foldl_same (fun m => m.rod i) (evalPoint S) _ fun m b hb => by
    unfold evalPoint
    split_ifs with hk <;> rfl]
  rfl

theorem forces_body (i : ℕ) (h : ¬ BodyCounts S i) (m : Mem Q FL FP FR FB) : (forces S m).body i = m.body i := by
  have hB : ∀ b ∈ List.range S.nb, S.bkind b ≠ .FIXED → b ≠ i := by
    rintro b hb hk rfl
    exact h ⟨List.mem_range.mp hb, hk⟩
  unfold forces
  dsimp only
  rw [foldl_same (fun m => m.body i) (askBody S (rodWater S m)) _ fun m b hb => by
    unfold askBody
    split_ifs with hk
    · exact rhsBody_body _ _ _ (hB b hb (by rw [hk]; decide)) m
    · rfl]
  rw [foldl_same (fun m => m.body i) (askRod S (rodWater S m)) _ fun m b hb => by
    unfold askRod
    split_ifs with hk <;> rfl]
  rw [foldl_same (fun m => m.body i) (askPoint S) _ fun m b hb => by
    unfold askPoint
    split_ifs with hk <;> rfl]
  rw [foldl_same (fun m => m.body i) (evalBody S (rodWater S m)) _ fun m b hb => by
    unfold evalBody
    split_ifs with hk
    · exact rhsBody_body _ _ _ (hB b hb (by rcases hk with hk | hk <;> rw [hk] <;> decide)) m
    · rfl]
  rw [foldl_same (fun m => m.body i) (evalRod S (rodWater S m)) _ fun m b hb => by
    unfold evalRod
    cases S.rkind b <;> rfl]
  rw [foldl_same (fun m => m.body i) (evalPoint S) _ fun m b hb => by
    unfold evalPoint
    split_ifs with hk <;> rfl]
  rfl

/-- The force on a point that is fixed to the ground or to a fixed body is never computed, whatever its lines pull: the force that is
read from an anchor is forever the zero it has at the start (source/Point.cpp:94). -/
theorem C111_anchor_false [AddCommGroup Q] [Module ℝ Q] (i : ℕ) (hi : ¬ PointCounts S i) (ax : Time.Aux ℝ (State Q))
    (sc : Time.Scheme ℝ) (dtM0 : ℝ) (fuel : ℕ) (calls : List Asked) (s e : Time.Sim ℝ (State Q) (Mem Q FL FP FR FB))
    (hr : calls.foldlM (call S ax sc dtM0 fuel) s = some e) : (e.m.point i).F = (s.m.point i).F := by
  refine remembers_simulation (fun m => (m.point i).F = (s.m.point i).F) ?_ ?_ ?_ ax sc dtM0 fuel calls s e rfl hr
  · exact fun t tl e m h => (congrFun (congrArg (fun x => x.2.1) (kept_update (S := S) t tl e m)) i).trans h
  · intro m h
    rw [← h, ← forces_point i hi m]
    exact congrFun (congrArg (fun x => x.2.1) (kept_passBody (S := S) none (forces S m).ground (forces S m))) i
  · exact fun x m h => (congrFun (congrArg (fun x => x.2.1) (kept_initiate (S := S) x m)) i).trans h

/-- The force on a rod that is fixed to the ground or to a fixed body is never computed: what is read is what the memory held when the
rod was made, and nobody has set it (source/Rod.hpp:168). -/
theorem C111_fixed_rod_false [AddCommGroup Q] [Module ℝ Q] (i : ℕ) (hi : ¬ RodCounts S i) (ax : Time.Aux ℝ (State Q))
    (sc : Time.Scheme ℝ) (dtM0 : ℝ) (fuel : ℕ) (calls : List Asked) (s e : Time.Sim ℝ (State Q) (Mem Q FL FP FR FB))
    (hr : calls.foldlM (call S ax sc dtM0 fuel) s = some e) : (e.m.rod i).F = (s.m.rod i).F := by
  refine remembers_simulation (fun m => (m.rod i).F = (s.m.rod i).F) ?_ ?_ ?_ ax sc dtM0 fuel calls s e rfl hr
  · exact fun t tl e m h => (congrFun (congrArg (fun x => x.2.2.1) (kept_update (S := S) t tl e m)) i).trans h
  · intro m h
    rw [← h, ← forces_rod i hi m]
    exact congrFun (congrArg (fun x => x.2.2.1) (kept_passBody (S := S) none (forces S m).ground (forces S m))) i
  · exact fun x m h => (congrFun (congrArg (fun x => x.2.2.1) (kept_initiate (S := S) x m)) i).trans h

/-- The force on a fixed body is never computed, whatever the lines at its points and rods pull. -/
theorem C111_fixed_body_false [AddCommGroup Q] [Module ℝ Q] (b : ℕ) (hb : ¬ BodyCounts S b) (ax : Time.Aux ℝ (State Q))
    (sc : Time.Scheme ℝ) (dtM0 : ℝ) (fuel : ℕ) (calls : List Asked) (s e : Time.Sim ℝ (State Q) (Mem Q FL FP FR FB))
    (hr : calls.foldlM (call S ax sc dtM0 fuel) s = some e) : (e.m.body b).F = (s.m.body b).F := by
  refine remembers_simulation (fun m => (m.body b).F = (s.m.body b).F) ?_ ?_ ?_ ax sc dtM0 fuel calls s e rfl hr
  · exact fun t tl e m h => (congrFun (congrArg (fun x => x.2.2.2.1) (kept_update (S := S) t tl e m)) b).trans h
  · intro m h
    rw [← h, ← forces_body b hb m]
    exact congrFun (congrArg (fun x => x.2.2.2.1) (kept_passBody (S := S) none (forces S m).ground (forces S m))) b
  · exact fun x m h => (congrFun (congrArg (fun x => x.2.2.2.1) (kept_initiate (S := S) x m)) b).trans h

/-! ## The inner nodes of rods -/

/-- A coupled rod of two segments, two metres long, that is moved along its axis; an anchor with a line of constant tension to the end
of the rod.  The water at a place is how far it is along the axis; the force on the rod is that of the water at its middle. -/
noncomputable def towed : System Unit ℝ ℝ ℝ Unit ℝ where
  nb := 0
  nr := 1
  np := 1
  nl := 1
  bkind _ := .FREE
  rkind _ := .COUPLED
  pkind _ := .FIXED
  pts
    | none => [(0, ![10, 0, 0])]
    | some _ => []
  rods _ := []
  ends
    | 0 => [(0, .TOP)]
    | _ => []
  endsA _ := []
  endsB
    | 0 => [(0, .BOTTOM)]
    | _ => []
  rodN _ := 2
  rodLen _ := 2
  q0 _ := ![1, 0, 0]
  lineN _ := 3
  mat _ := 1
  pose x := (x.1, ())
  between _ _ := ()
  one := ()
  sea _ x := x 0
  moment _ _ _ _ _ := 0
  unit v := v
  lineF _ _ _ := (fun _ => 0, 7)
  pointF _ _ _ _ l := (l.map Prod.fst).sum
  pointA _ := 0
  rodF _ _ _ _ _ _ wt _ _ := wt 1
  rodA _ := 0
  pinA _ _ := 0
  quatA _ _ := ()
  bodyF _ _ _ _ _ _ _ _ _ := ()
  bodyA _ := 0
  bodyPinA _ _ := 0

theorem towed_sound : Sound towed where
  once := by
    intro h h' a ha ha'
    rcases h with (_ | i) | i | (_ | i) <;> rcases h' with (_ | j) | j | (_ | j) <;>
      simp [Holder.list, towed] at ha ha' ⊢ <;> simp_all
  lineN _ := by simp [towed]
  pts := by
    intro b b' a ha a' ha' h
    rcases b with _ | b <;> rcases b' with _ | b' <;> simp [towed] at ha ha' ⊢ <;> simp_all
  rods := by
    intro b b' a ha
    cases ha
  ptsKind _ _ _ := rfl
  rodsKind := by
    intro b a ha
    cases ha
  rodsNum := by
    intro b a ha
    cases ha
  ptsNum := by
    intro b a ha
    rcases b with _ | b <;> simp [towed] at ha ⊢ <;> simp_all
  bodyNum := by
    intro b h
    rcases h with ⟨a, ha⟩ | ⟨a, ha⟩ <;> cases ha

theorem towed_lines (h : Holder) : ∀ a ∈ h.list towed, a.1 < towed.nl := by
  intro a ha
  rcases h with (_ | i) | i | (_ | i) <;> simp [Holder.list, towed] at ha ⊢ <;> simp_all

/-- Where a motion of the rod of one metre per second along its axis puts its nodes. -/
theorem towed_update (t tl : ℝ) (e : State Unit) (m : Mem Unit ℝ ℝ ℝ Unit) (hv : (m.rod 0).ves = ((0, 0), (![1, 0, 0], 0), (0, 0))) :
    ((update towed t tl e m).rod 0).r 0 = ![tl, 0, 0] ∧ ((update towed t tl e m).rod 0).r 2 = ![tl + 2, 0, 0] ∧
      ((update towed t tl e m).rod 0).r 1 = (m.rod 0).r 1 ∧ ((update towed t tl e m).rod 0).ves = (m.rod 0).ves ∧
      (update towed t tl e m).t = t := by
  refine ⟨?_, ?_, ?_, ?_, ?_⟩ <;>
    simp [update, towed, passBody, movePoint, fairRod, fairPoint, stateRod, statePoint, stateLines, passRod, setRod, rodEnds, hv,
      List.range_succ]

theorem towed_evaluate (m : Mem Unit ℝ ℝ ℝ Unit) :
    ((evaluate towed m).rod 0).r 0 = (m.rod 0).r 0 ∧ ((evaluate towed m).rod 0).r 2 = (m.rod 0).r 2 ∧
      ((evaluate towed m).rod 0).r 1 = (m.rod 0).r 0 + (1 / 2 : ℝ) • ((m.rod 0).r 2 - (m.rod 0).r 0) ∧
      ((evaluate towed m).rod 0).F = (m.rod 0).r 1 0 ∧ ((evaluate towed m).rod 0).ves = (m.rod 0).ves := by
  refine ⟨?_, ?_, ?_, ?_, ?_⟩ <;>
    simp [evaluate, towed, passBody, movePoint, evalLines, evalPoint, evalRod, askPoint, askRod, rhsRod, straight, rodWater,
      List.range_succ]

/-- Memory before anything has been put in its place; the rod has been told to move. -/
noncomputable def towedBlank : Mem Unit ℝ ℝ ℝ Unit :=
  { t := 0
    line := fun _ => ⟨⟨fun _ => 0, fun _ => 0, .PINNED, .PINNED, 0, 0⟩, 0⟩
    point := fun _ => ⟨0, 0, 0, 0⟩
    rod := fun _ => ⟨0, (), 0, 0, 0, fun _ => 0, fun _ => 0, 0, ((0, 0), (![1, 0, 0], 0), (0, 0)), 0⟩
    body := fun _ => ⟨0, (), 0, 0, 1, 0, 0, ()⟩
    ground := ⟨0, (), 0, 0, 1, 0, 0, ()⟩ }

/-- Before the first step. -/
noncomputable def towedStart (e : State Unit) : Mem Unit ℝ ℝ ℝ Unit :=
  update towed 0 0 e towedBlank

theorem towedStart_connected (e : State Unit) : Connected towed (towedStart e) := by
  have h := C110_start (FL := ℝ) (FP := ℝ) (FR := ℝ) (FB := Unit) towed_sound (fun i hi hk => ?_) (fun i _ hk => ?_) (fun _ => 0) 0 0 e
    towedBlank
  · exact h
  · have : i < 1 := hi
    obtain rfl : i = 0 := by omega
    exact ⟨none, _, List.mem_singleton.mpr rfl⟩
  · cases hk

theorem towedStart_rod (e : State Unit) : ((towedStart e).rod 0).r 0 = ![0, 0, 0] ∧ ((towedStart e).rod 0).r 2 = ![2, 0, 0] ∧
    ((towedStart e).rod 0).ves = ((0, 0), (![1, 0, 0], 0), (0, 0)) := by
  obtain ⟨h1, h2, -, h4, -⟩ := towed_update 0 0 e towedBlank rfl
  refine ⟨h1, ?_, h4⟩
  rw [zero_add] at h2
  exact h2

/-- The first evaluation, and the update at the end of the first step, of one second. -/
theorem towed_step (e : State Unit) : let m := update towed 1 1 e (evaluate towed (towedStart e))
    (m.rod 0).r 0 = ![1, 0, 0] ∧ (m.rod 0).r 1 = ![1, 0, 0] ∧ (m.rod 0).r 2 = ![3, 0, 0] ∧
      (m.rod 0).ves = ((0, 0), (![1, 0, 0], 0), (0, 0)) := by
  obtain ⟨h1, h2, h3⟩ := towedStart_rod e
  obtain ⟨-, -, e3, -, e5⟩ := towed_evaluate (towedStart e)
  obtain ⟨u1, u2, u3, u4, -⟩ := towed_update 1 1 e (evaluate towed (towedStart e)) (e5.trans h3)
  refine ⟨u1, ?_, ?_, u4.trans (e5.trans h3)⟩
  · rw [u3, e3, h1, h2]
    funext j
    fin_cases j <;> norm_num
  · rw [u2]
    norm_num

/-- After a step the inner nodes of a rod are where the forces were computed last, not between its ends: a rod of two segments that has
been moved along its axis by half its length has its middle at its end A. -/
theorem C111_nodes_false : ∃ m : Mem Unit ℝ ℝ ℝ Unit, Connected towed m ∧ ∀ e : State Unit,
    let m' := update towed 1 1 e (evaluate towed m)
    (m'.rod 0).r 1 = (m'.rod 0).r 0 ∧ (m'.rod 0).r 1 ≠ spaced 2 (m'.rod 0).r 1 := by
  refine ⟨towedStart 0, towedStart_connected 0, fun e => ?_⟩
  obtain ⟨h1, h2, h3⟩ := towedStart_rod 0
  obtain ⟨-, -, e3, -, e5⟩ := towed_evaluate (towedStart 0)
  obtain ⟨u1, u2, u3, u4, -⟩ := towed_update 1 1 e (evaluate towed (towedStart 0)) (e5.trans h3)
  have h : ((update towed 1 1 e (evaluate towed (towedStart 0))).rod 0).r 1 = ![1, 0, 0] := by
    rw [u3, e3, h1, h2]
    funext j
    fin_cases j <;> norm_num
  refine ⟨h.trans u1.symm, ?_⟩
  rw [h]
  unfold spaced
  rw [if_pos (by norm_num), u1, u2]
  intro hh
  have := congrFun hh 0
  norm_num at this

/-- The water at the inner nodes of a rod is that of the places where they were when the forces were computed before: the second
evaluation computes another force than that of the water where the rod is. -/
theorem C111_water_false : ∃ m : Mem Unit ℝ ℝ ℝ Unit, Connected towed m ∧
    let m' := evaluate towed m
    (m'.rod 0).r = spaced 2 (m'.rod 0).r ∧ (m'.rod 0).F ≠ rodNow towed m' (m'.rod 0).r 0 := by
  refine ⟨update towed 1 1 0 (evaluate towed (towedStart 0)),
    C110_update towed_sound _ _ _ _ (C110_forces towed_sound _ (towedStart_connected 0)), ?_, ?_⟩
  · have h := C111_forces towed_lines (update towed 1 1 0 (evaluate towed (towedStart 0)))
    obtain ⟨a0, a2, a1, -, -⟩ := towed_evaluate (update towed 1 1 0 (evaluate towed (towedStart 0)))
    funext j
    unfold spaced
    split_ifs with hj
    · have : j = 0 ∨ j = 1 := by omega
      rcases this with rfl | rfl
      · simp
      · rw [a0, a1, a2]
        norm_num
    · rfl
  · obtain ⟨h0, h1, h2, -⟩ := towed_step 0
    obtain ⟨-, -, a1, aF, -⟩ := towed_evaluate (update towed 1 1 0 (evaluate towed (towedStart 0)))
    rw [aF, h1]
    show _ ≠ ((evaluate towed (update towed 1 1 0 (evaluate towed (towedStart 0)))).rod 0).r 1 0
    rw [a1, h0, h2]
    norm_num

/-- The anchor of this system is such a point: its line pulls with seven newtons, and the force that is read is zero. -/
example (ax : Time.Aux ℝ (State Unit)) (sc : Time.Scheme ℝ) (dtM0 : ℝ) (fuel : ℕ) (calls : List Asked)
    (s e : Time.Sim ℝ (State Unit) (Mem Unit ℝ ℝ ℝ Unit)) (hs : (s.m.point 0).F = 0)
    (hr : calls.foldlM (call towed ax sc dtM0 fuel) s = some e) : (e.m.point 0).F = 0 ∧ pointNow towed e.m 0 = 7 := by
  refine ⟨(C111_anchor_false 0 ?_ ax sc dtM0 fuel calls s e hr).trans hs, ?_⟩
  · rintro (⟨-, h⟩ | ⟨b, -, rel, h⟩)
    · exact h rfl
    · cases h
  · simp [pointNow, pullNow, lineNow, towed]

/-- The force on the rod is one that counts, and after any simulation it is that of a moment at which everything was connected. -/
example (ax : Time.Aux ℝ (State Unit)) (sc : Time.Scheme ℝ) (dtM0 : ℝ) (fuel : ℕ) (calls : List Asked)
    (s e : Time.Sim ℝ (State Unit) (Mem Unit ℝ ℝ ℝ Unit)) (hs : s.m = evaluate towed (towedStart 0))
    (hr : calls.foldlM (call towed ax sc dtM0 fuel) s = some e) :
    ∃ o, Connected towed o ∧ (e.m.rod 0).F = (o.rod 0).r 1 0 ∧ (e.m.line 0).F = 7 := by
  obtain ⟨o, ho, h⟩ := C111_simulation towed_sound towed_lines ax sc dtM0 fuel calls s e _ (towedStart_connected 0) hs hr
  exact ⟨o, ho, (h.rod 0 (.inl ⟨by simp [towed], by simp [towed]⟩)).1, h.line 0 (by simp [towed])⟩

end MD.Whole
