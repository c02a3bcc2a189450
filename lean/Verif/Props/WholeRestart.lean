import Verif.Lemmas.WholeLoad
import Verif.Lemmas.Absorb
import Verif.Props.Connected

/-!
# C109 with bodies and rods: what is not stored is not needed
-/

set_option linter.unusedSimpArgs false
set_option linter.unusedSectionVars false
set_option linter.unusedVariables false
set_option linter.unnecessarySeqFocus false

namespace MD.Whole

open MD.Mooring Matrix
open MD.Moored (Kind)

variable {Q FL FP FR FB Wt : Type} {S : System Q FL FP FR FB Wt}

/-! ## What is never written -/

/-- What is not stored in a file: accelerations and what is given, and of the ground what does not depend on the time. -/
def still (m : Mem Q FL FP FR FB) :=
  ((m.ground.ves, m.ground.F), (fun b => ((m.body b).acc, (m.body b).ves)), fun i => ((m.rod i).acc, (m.rod i).ves))

/-- The accelerations of rods that are not coupled are those that `setup` wrote, zero (source/Rod.cpp:148), and the ground is as it was
made.  What nothing reads, such as `a6` and `rdd_ves` of a free body before it is evaluated, is taken to be zero, too. -/
structure Idle (S : System Q FL FP FR FB Wt) (g : ((V × V) × (V × V) × (V × V)) × FB) (m : Mem Q FL FP FR FB) : Prop where
  ground : (m.ground.ves, m.ground.F) = g
  body : ∀ b, S.nb ≤ b ∨ S.bkind b = .FREE ∨ S.bkind b = .FIXED → (m.body b).acc = 0 ∧ (m.body b).ves.2.2 = 0
  bodyPin : ∀ b, S.bkind b = .CPLDPIN → (m.body b).acc.2 = 0 ∧ (m.body b).ves.2.2.2 = 0
  rod : ∀ i, S.nr ≤ i ∨ S.rkind i = .FREE ∨ S.rkind i = .FIXED ∨ S.rkind i = .PINNED → (m.rod i).acc = 0 ∧ (m.rod i).ves.2.2 = 0
  rodPin : ∀ i, S.rkind i = .CPLDPIN → (m.rod i).acc.2 = 0 ∧ (m.rod i).ves.2.2.2 = 0

variable {g : ((V × V) × (V × V) × (V × V)) × FB}

theorem Idle.of_still {m m' : Mem Q FL FP FR FB} (h : Idle S g m) (e : still m' = still m) : Idle S g m' := by
  simp only [still, Prod.mk.injEq] at e
  obtain ⟨⟨e1, e1'⟩, e2, e3⟩ := e
  have e4 := fun b => (Prod.mk.injEq _ _ _ _).mp (congrFun e2 b)
  have e5 := fun b => (Prod.mk.injEq _ _ _ _).mp (congrFun e3 b)
  constructor
  · rw [e1, e1']; exact h.ground
  · intro b hb
    rw [(e4 b).1, (e4 b).2]; exact h.body b hb
  · intro b hb
    rw [(e4 b).1, (e4 b).2]; exact h.bodyPin b hb
  · intro b hb
    rw [(e5 b).1, (e5 b).2]; exact h.rod b hb
  · intro b hb
    rw [(e5 b).1, (e5 b).2]; exact h.rodPin b hb

theorem still_aside {m m' : Mem Q FL FP FR FB} (h : aside m' = aside m) : still m' = still m := by
  simp only [aside, Prod.mk.injEq] at h
  obtain ⟨h1, h2, h3⟩ := h
  simp only [still, h1, h2, Prod.mk.injEq, true_and]
  funext i
  have := congrFun h3 i
  simp only [Prod.mk.injEq] at this
  rw [this.1, this.2.1]

theorem idle_foldl {α : Type} (F : Mem Q FL FP FR FB → α → Mem Q FL FP FR FB) (l : List α)
    (h : ∀ m, ∀ a ∈ l, Idle S g m → Idle S g (F m a)) (m : Mem Q FL FP FR FB) (hm : Idle S g m) : Idle S g (l.foldl F m) := by
  induction l generalizing m with
  | nil => exact hm
  | cons a l ih => exact ih (fun m b hb => h m b (List.mem_cons_of_mem _ hb)) _ (h m a List.mem_cons_self hm)

theorem Idle.aside {m m' : Mem Q FL FP FR FB} (h : Idle S g m) (e : Whole.aside m' = Whole.aside m) : Idle S g m' :=
  h.of_still (still_aside e)

/-- Another body `b`. -/
theorem Idle.putBody {m : Mem Q FL FP FR FB} (h : Idle S g m) (b : ℕ) (B : Body Q FB)
    (h1 : S.nb ≤ b ∨ S.bkind b = .FREE ∨ S.bkind b = .FIXED → B.acc = (m.body b).acc ∧ B.ves.2.2 = (m.body b).ves.2.2)
    (h2 : S.bkind b = .CPLDPIN → B.acc.2 = (m.body b).acc.2 ∧ B.ves.2.2.2 = (m.body b).ves.2.2.2) :
    Idle S g { m with body := Function.update m.body b B } := by
  refine ⟨h.ground, fun c hc => ?_, fun c hc => ?_, h.rod, h.rodPin⟩
  · by_cases hb : c = b
    · subst hb
      dsimp only
      rw [Function.update_self, (h1 hc).1, (h1 hc).2]
      exact h.body c hc
    · dsimp only
      rw [Function.update_of_ne hb]
      exact h.body c hc
  · by_cases hb : c = b
    · subst hb
      dsimp only
      rw [Function.update_self, (h2 hc).1, (h2 hc).2]
      exact h.bodyPin c hc
    · dsimp only
      rw [Function.update_of_ne hb]
      exact h.bodyPin c hc

theorem Idle.setRod {m : Mem Q FL FP FR FB} (h : Idle S g m) (i : ℕ) (f : Rod Q FR → Rod Q FR)
    (h1 : S.nr ≤ i ∨ S.rkind i = .FREE ∨ S.rkind i = .FIXED ∨ S.rkind i = .PINNED →
      (f (m.rod i)).acc = 0 ∧ (f (m.rod i)).ves.2.2 = 0)
    (h2 : S.rkind i = .CPLDPIN → (f (m.rod i)).acc.2 = 0 ∧ (f (m.rod i)).ves.2.2.2 = 0) :
    Idle S g (Whole.setRod i f m) := by
  refine ⟨h.ground, h.body, h.bodyPin, fun c hc => ?_, fun c hc => ?_⟩
  · by_cases hb : c = i
    · subst hb
      simpa [Whole.setRod] using h1 hc
    · simpa [Whole.setRod, Function.update_of_ne hb] using h.rod c hc
  · by_cases hb : c = i
    · subst hb
      simpa [Whole.setRod] using h2 hc
    · simpa [Whole.setRod, Function.update_of_ne hb] using h.rodPin c hc

theorem aside_movePoint (i : ℕ) (x xd : V) (m : Mem Q FL FP FR FB) : aside (movePoint S i x xd m) = aside m := rfl

theorem idle_update (t tl : ℝ) (e : State Q) (m : Mem Q FL FP FR FB) (hm : Idle S g m) : Idle S g (update S t tl e m) := by
  have h0 : Idle S g (passBody S none (bodyFair S t m.ground) { m with ground := bodyFair S t m.ground, t := t }) := by
    refine Idle.aside (m := { m with ground := bodyFair S t m.ground, t := t }) ?_ (aside_passBody _ _ _)
    exact hm.of_still rfl
  have h1 := idle_foldl (fairBody S tl) (List.range S.nb) (fun m b hb h => by
    unfold fairBody
    cases hk : S.bkind b with
    | FREE => exact h
    | FIXED => exact h
    | COUPLED =>
      refine Idle.aside (h.putBody b _ ?_ ?_) (aside_passBody _ _ _)
      · rintro (h | h | h)
        · exact absurd (List.mem_range.mp hb) (by omega)
        · rw [hk] at h; cases h
        · rw [hk] at h; cases h
      · intro h; rw [hk] at h; cases h
    | CPLDPIN =>
      refine h.putBody b _ ?_ ?_
      · rintro (h | h | h)
        · exact absurd (List.mem_range.mp hb) (by omega)
        · rw [hk] at h; cases h
        · rw [hk] at h; cases h
      · exact fun _ => ⟨rfl, rfl⟩) _ h0
  have h2 := idle_foldl (fairRod S tl) (List.range S.nr) (fun m i hi h => by
    unfold fairRod
    cases hk : S.rkind i with
    | FREE => exact h
    | FIXED => exact h
    | PINNED => exact h
    | COUPLED =>
      refine Idle.aside (h.setRod i _ ?_ ?_) (aside_passRod _ _)
      · rintro (h | h | h | h)
        · exact absurd (List.mem_range.mp hi) (by omega)
        · rw [hk] at h; cases h
        · rw [hk] at h; cases h
        · rw [hk] at h; cases h
      · intro h; rw [hk] at h; cases h
    | CPLDPIN =>
      refine h.setRod i _ ?_ ?_
      · rintro (h | h | h | h)
        · exact absurd (List.mem_range.mp hi) (by omega)
        · rw [hk] at h; cases h
        · rw [hk] at h; cases h
        · rw [hk] at h; cases h
      · exact fun hk => h.rodPin i hk) _ h1
  have h3 := idle_foldl (fairPoint S tl) (List.range S.np) (fun m i _ h => by
    unfold fairPoint
    split_ifs
    · exact h.aside (aside_movePoint _ _ _ _)
    · exact h) _ h2
  have h4 := idle_foldl (stateBody S e.2.2.2) (List.range S.nb) (fun m b _ h => by
    unfold stateBody
    cases hk : S.bkind b with
    | FREE => 
      refine Idle.aside (h.putBody b _ ?_ ?_) (aside_passBody _ _ _)
      · exact fun _ => ⟨rfl, rfl⟩
      · exact fun _ => ⟨rfl, rfl⟩
    | FIXED => exact h
    | COUPLED => exact h
    | CPLDPIN => 
      refine Idle.aside (h.putBody b _ ?_ ?_) (aside_passBody _ _ _)
      · exact fun _ => ⟨rfl, rfl⟩
      · exact fun _ => ⟨rfl, rfl⟩) _ h3
  have hs : ∀ (m : Mem Q FL FP FR FB) (i : ℕ), Idle S g m → Idle S g (setRod i (settle S i) m) := by
    intro m i h
    have : (settle S i (m.rod i)).acc = (m.rod i).acc ∧ (settle S i (m.rod i)).ves = (m.rod i).ves := by
      unfold settle
      split_ifs <;> exact ⟨rfl, rfl⟩
    exact h.setRod i _ (fun hk => by rw [this.1, this.2]; exact h.rod i hk) fun hk => by rw [this.1, this.2]; exact h.rodPin i hk
  have h5 := idle_foldl (stateRod S e.2.2.1) (List.range S.nr) (fun m i _ h => by
    unfold stateRod
    cases hk : S.rkind i with
    | FREE => exact hs _ i (Idle.aside (h.setRod i _ (h.rod i) (h.rodPin i)) (aside_passRod _ _))
    | FIXED => exact h
    | PINNED => exact hs _ i (Idle.aside (h.setRod i _ (h.rod i) (h.rodPin i)) (aside_passRod _ _))
    | COUPLED => exact h
    | CPLDPIN => exact hs _ i (Idle.aside (h.setRod i _ (h.rod i) (h.rodPin i)) (aside_passRod _ _))) _ h4
  have h6 := idle_foldl (statePoint S e.2.1) (List.range S.np) (fun m i _ h => by
    unfold statePoint
    split_ifs
    · exact h.aside (aside_movePoint _ _ _ _)
    · exact h) _ h5
  exact h6.of_still rfl

theorem still_rhsRod (wt : ℕ → ℕ → Wt) (i : ℕ) (m : Mem Q FL FP FR FB) : still (rhsRod S wt i m) = still m := by
  simp only [still, rhsRod, Prod.mk.injEq, true_and]
  funext c
  by_cases h : c = i
  · subst h; simp
  · simp [Function.update_of_ne h]

theorem still_rhsBody (wt : ℕ → ℕ → Wt) (b : ℕ) (m : Mem Q FL FP FR FB) : still (rhsBody S wt b m) = still m := by
  unfold rhsBody
  dsimp only
  refine Eq.trans ?_ ((foldl_same still (fun m a => rhsRod S wt a.1 m) (S.rods (some b)) (fun m a _ => still_rhsRod wt _ m) _).trans
    (foldl_same still (fun m a => rhsPoint S a.1 m) (S.pts (some b)) (fun m a _ => rfl) m))
  generalize (S.rods (some b)).foldl (fun m a => rhsRod S wt a.1 m) _ = m'
  simp only [still, Prod.mk.injEq, true_and, and_true]
  funext c
  by_cases h : c = b
  · subst h; simp
  · simp [Function.update_of_ne h]

theorem idle_evaluate (m : Mem Q FL FP FR FB) (hm : Idle S g m) : Idle S g (evaluate S m) := by
  unfold evaluate
  dsimp only
  refine Idle.aside ?_ (aside_passBody _ _ _)
  refine idle_foldl _ _ (fun m b _ h => ?_) _ ?_
  · unfold askBody
    split_ifs
    · exact h.of_still (still_rhsBody _ _ _)
    · exact h
  refine idle_foldl _ _ (fun m b _ h => ?_) _ ?_
  · unfold askRod
    split_ifs
    · exact h.of_still (still_rhsRod _ _ _)
    · exact h
  refine idle_foldl _ _ (fun m b _ h => ?_) _ ?_
  · unfold askPoint
    split_ifs
    · exact h.of_still rfl
    · exact h
  refine idle_foldl _ _ (fun m b _ h => ?_) _ ?_
  · unfold evalBody
    split_ifs
    · exact h.of_still (still_rhsBody _ _ _)
    · exact h
  refine idle_foldl _ _ (fun m i _ h => ?_) _ ?_
  · have hz : ∀ wt, Idle S g (setRod i (fun R => { R with acc := (0, R.acc.2) }) (rhsRod S wt i m)) := by
      intro wt
      have h' := h.of_still (still_rhsRod (S := S) wt i m)
      refine h'.setRod i _ (fun hk => ⟨?_, (h'.rod i hk).2⟩) (h'.rodPin i)
      have := (h'.rod i hk).1
      rw [this]
      rfl
    unfold evalRod
    cases hk : S.rkind i with
    | FREE => exact h.of_still (still_rhsRod _ _ _)
    | FIXED => exact h
    | PINNED => exact hz _
    | COUPLED => exact h
    | CPLDPIN => exact hz _
  refine idle_foldl _ _ (fun m b _ h => ?_) _ ?_
  · unfold evalPoint
    split_ifs
    · exact h.of_still rfl
    · exact h
  exact hm.of_still rfl

theorem idle_initiate (x : Asked) (m : Mem Q FL FP FR FB) (hm : Idle S g m) : Idle S g (initiate S x m) := by
  unfold initiate
  dsimp only
  refine idle_foldl _ _ (fun m b _ h => ?_) _ ?_
  · unfold initPoint
    split_ifs
    · exact h.of_still rfl
    · exact h
  refine idle_foldl _ _ (fun m i hi h => ?_) _ ?_
  · unfold initRod
    cases hk : S.rkind i with
    | FREE => exact h
    | FIXED => exact h
    | PINNED => exact h
    | COUPLED =>
      refine Idle.aside (h.setRod i _ ?_ ?_) (aside_passRod _ _)
      · rintro (h | h | h | h)
        · exact absurd (List.mem_range.mp hi) (by omega)
        · rw [hk] at h; cases h
        · rw [hk] at h; cases h
        · rw [hk] at h; cases h
      · intro h; rw [hk] at h; cases h
    | CPLDPIN =>
      refine h.setRod i _ ?_ ?_
      · rintro (h | h | h | h)
        · exact absurd (List.mem_range.mp hi) (by omega)
        · rw [hk] at h; cases h
        · rw [hk] at h; cases h
        · rw [hk] at h; cases h
      · exact fun hk => h.rodPin i hk
  refine idle_foldl _ _ (fun m b hb h => ?_) _ hm
  unfold initBody
  cases hk : S.bkind b with
  | FREE => exact h
  | FIXED => exact h
  | COUPLED =>
    refine h.putBody b _ ?_ ?_
    · rintro (h | h | h)
      · exact absurd (List.mem_range.mp hb) (by omega)
      · rw [hk] at h; cases h
      · rw [hk] at h; cases h
    · intro h; rw [hk] at h; cases h
  | CPLDPIN =>
    refine h.putBody b _ ?_ ?_
    · rintro (h | h | h)
      · exact absurd (List.mem_range.mp hb) (by omega)
      · rw [hk] at h; cases h
      · rw [hk] at h; cases h
    · exact fun _ => ⟨rfl, rfl⟩

/-! ## After loading -/

/-- Each end of each line is held by a point or a rod. -/
def Held (S : System Q FL FP FR FB Wt) : Prop :=
  ∀ k < S.nl, ∀ p, (∃ i < S.np, (k, p) ∈ S.ends i) ∨ ∃ i < S.nr, (k, p) ∈ S.endsA i ∨ (k, p) ∈ S.endsB i

/-- How the ends of lines are held. -/
def kinds (L : Line FL) : EndPt → EndType
  | .TOP => L.s.endB
  | .BOTTOM => L.s.endA

theorem kinds_tip (k : ℕ) (L : Line FL) (p : EndPt) : (tip S k L p).2.2.1 = kinds L p := by cases p <;> rfl

/-- In two memories where everything is connected the ends of the lines are held in the same way. -/
theorem same_kinds (hH : Held S) {m m' : Mem Q FL FP FR FB} (hm : Connected S m) (hm' : Connected S m') (k : ℕ) (hk : k < S.nl)
    (p : EndPt) : kinds (m.line k) p = kinds (m'.line k) p := by
  rw [← kinds_tip (S := S) k, ← kinds_tip (S := S) k]
  rcases hH k hk p with ⟨i, hi, h⟩ | ⟨i, hi, h | h⟩
  · obtain ⟨d, h1⟩ := hm.holds i hi _ h
    obtain ⟨d', h2⟩ := hm'.holds i hi _ h
    simp only at h1 h2
    rw [h1, h2]
  · obtain ⟨d, h1, -⟩ := (hm.rodHolds i hi).2.2.2.1 _ h
    obtain ⟨d', h2, -⟩ := (hm'.rodHolds i hi).2.2.2.1 _ h
    simp only at h1 h2
    rw [h1, h2]
  · obtain ⟨d, h1, -⟩ := (hm.rodHolds i hi).2.2.2.2 _ h
    obtain ⟨d', h2, -⟩ := (hm'.rodHolds i hi).2.2.2.2 _ h
    simp only at h1 h2
    rw [h1, h2]

/-- The two memories are of two systems read from the same file: in both everything is connected, and what is not coupled has not been
given anything. -/
structure Kin (S : System Q FL FP FR FB Wt) (g : ((V × V) × (V × V) × (V × V)) × FB) (m m' : Mem Q FL FP FR FB) : Prop where
  conn : Connected S m
  conn' : Connected S m'
  idle : Idle S g m
  idle' : Idle S g m'

theorem load_eq (hH : Held S) {m m' : Mem Q FL FP FR FB} (h : Kin S g m m') :
    load S m m' = setAcc (fun b => (m'.body b).acc) (fun i => (m'.rod i).acc)
      (setRdd (fun b => (m'.body b).ves.2.2) (fun i => (m'.rod i).ves.2.2) (setGround m'.ground m)) := by
  refine mem_ext rfl ?_ rfl rfl rfl rfl
  funext k
  simp only [load, setAcc, setRdd, setGround]
  split_ifs with hk
  · have h1 := same_kinds hH h.conn h.conn' k hk .BOTTOM
    have h2 := same_kinds hH h.conn h.conn' k hk .TOP
    simp only [kinds] at h1 h2
    rw [← h1, ← h2]
  · rfl

/-- C109: what has been loaded, and has been given the motion of the next call, is after `Update` what it would have been in the
simulation that was saved. -/
theorem C109_whole_update (hH : Held S) {m m' : Mem Q FL FP FR FB} (h : Kin S g m m') (x : Asked) (t tl : ℝ) (e : State Q) :
    update S t tl e (initiate S x (load S m m')) = update S t tl e (initiate S x m) := by
  have hi := h.idle
  have hi' := h.idle'
  have hb : ∀ b, ¬ (b < S.nb) ∨ S.bkind b = .FREE ∨ S.bkind b = .FIXED ∨
      (b < S.nb ∧ S.bkind b = .COUPLED) ∨ (b < S.nb ∧ S.bkind b = .CPLDPIN) := by
    intro b
    by_cases hb : b < S.nb
    · cases hk : S.bkind b <;> simp [hb]
    · exact .inl hb
  have hr : ∀ i, ¬ (i < S.nr) ∨ S.rkind i = .FREE ∨ S.rkind i = .FIXED ∨ S.rkind i = .PINNED ∨
      (i < S.nr ∧ S.rkind i = .COUPLED) ∨ (i < S.nr ∧ S.rkind i = .CPLDPIN) := by
    intro b
    by_cases hb : b < S.nr
    · cases hk : S.rkind b <;> simp [hb]
    · exact .inl hb
  rw [load_eq hH h, initiate_acc, initiate_rdd, initiate_ground]
  · have hg : bodyFair S t m'.ground = bodyFair S t (initiate S x m).ground := by
      have h1 := hi.ground
      have h2 := hi'.ground
      have h3 := h1.trans h2.symm
      simp only [Prod.mk.injEq] at h3
      rw [initiate_ground_eq]
      simp only [bodyFair, h3.1, h3.2]
    rw [update_acc, update_ground _ _ _ _ hg]
    · intro b
      have e1 : (initiate S x m).body b = ((setGround m'.ground (initiate S x m)).body b) := rfl
      rw [← e1, show ((initiate S x m).body b).acc = (m.body b).acc from congrFun (initiate_bacc x m) b]
      beta_reduce
      rcases hb b with h | h | h | h | h
      · exact .inl (by rw [(hi.body b (.inl (not_lt.mp h))).1, (hi'.body b (.inl (not_lt.mp h))).1])
      · exact .inl (by rw [(hi.body b (.inr (.inl h))).1, (hi'.body b (.inr (.inl h))).1])
      · exact .inl (by rw [(hi.body b (.inr (.inr h))).1, (hi'.body b (.inr (.inr h))).1])
      · exact .inr ⟨List.mem_range.mpr h.1, .inl h.2⟩
      · exact .inr ⟨List.mem_range.mpr h.1, .inr ⟨h.2, by rw [(hi.bodyPin b h.2).1, (hi'.bodyPin b h.2).1]⟩⟩
    · intro i
      have e1 : (initiate S x m).rod i = ((setGround m'.ground (initiate S x m)).rod i) := rfl
      rw [← e1, show ((initiate S x m).rod i).acc = (m.rod i).acc from congrFun (initiate_racc x m) i]
      beta_reduce
      rcases hr i with h | h | h | h | h | h
      · exact .inl (by rw [(hi.rod i (.inl (not_lt.mp h))).1, (hi'.rod i (.inl (not_lt.mp h))).1])
      · exact .inl (by rw [(hi.rod i (.inr (.inl h))).1, (hi'.rod i (.inr (.inl h))).1])
      · exact .inl (by rw [(hi.rod i (.inr (.inr (.inl h)))).1, (hi'.rod i (.inr (.inr (.inl h)))).1])
      · exact .inl (by rw [(hi.rod i (.inr (.inr (.inr h)))).1, (hi'.rod i (.inr (.inr (.inr h)))).1])
      · exact .inr ⟨List.mem_range.mpr h.1, .inl h.2⟩
      · exact .inr ⟨List.mem_range.mpr h.1, .inr ⟨h.2, by rw [(hi.rodPin i h.2).1, (hi'.rodPin i h.2).1]⟩⟩
  · intro b
    change _ = (m.body b).ves.2.2 ∨ _ ∧ (_ ∨ _ ∧ _ = (m.body b).ves.2.2.2)
    beta_reduce
    rcases hb b with h | h | h | h | h
    · exact .inl (by rw [(hi.body b (.inl (not_lt.mp h))).2, (hi'.body b (.inl (not_lt.mp h))).2])
    · exact .inl (by rw [(hi.body b (.inr (.inl h))).2, (hi'.body b (.inr (.inl h))).2])
    · exact .inl (by rw [(hi.body b (.inr (.inr h))).2, (hi'.body b (.inr (.inr h))).2])
    · exact .inr ⟨List.mem_range.mpr h.1, .inl h.2⟩
    · exact .inr ⟨List.mem_range.mpr h.1, .inr ⟨h.2, by rw [(hi.bodyPin b h.2).2, (hi'.bodyPin b h.2).2]⟩⟩
  · intro i
    change _ = (m.rod i).ves.2.2 ∨ _ ∧ (_ ∨ _ ∧ _ = (m.rod i).ves.2.2.2)
    beta_reduce
    rcases hr i with h | h | h | h | h | h
    · exact .inl (by rw [(hi.rod i (.inl (not_lt.mp h))).2, (hi'.rod i (.inl (not_lt.mp h))).2])
    · exact .inl (by rw [(hi.rod i (.inr (.inl h))).2, (hi'.rod i (.inr (.inl h))).2])
    · exact .inl (by rw [(hi.rod i (.inr (.inr (.inl h)))).2, (hi'.rod i (.inr (.inr (.inl h)))).2])
    · exact .inl (by rw [(hi.rod i (.inr (.inr (.inr h)))).2, (hi'.rod i (.inr (.inr (.inr h)))).2])
    · exact .inr ⟨List.mem_range.mpr h.1, .inl h.2⟩
    · exact .inr ⟨List.mem_range.mpr h.1, .inr ⟨h.2, by rw [(hi.rodPin i h.2).2, (hi'.rodPin i h.2).2]⟩⟩

/-- `MoorDyn_Load` of what `MoorDyn_Save` wrote in `s`, into `s'`: the objects (`load`) and `TimeSchemeBase::Deserialize`,
source/Time.hpp:668-719 and 1097-1106. -/
def loadSim (S : System Q FL FP FR FB Wt) (s s' : Time.Sim ℝ (State Q) (Mem Q FL FP FR FB)) : Time.Sim ℝ (State Q) (Mem Q FL FP FR FB) :=
  { s with tl := s'.tl, m := load S s.m s'.m }

/-- C109: the next call of `MoorDyn_Step` gives exactly what it would have given without the interruption. -/
theorem C109_whole_call [AddCommGroup Q] [Module ℝ Q] (hH : Held S) (ax : Time.Aux ℝ (State Q)) (sc : Time.Scheme ℝ) (dtM0 : ℝ)
    (fuel : ℕ) {s s' : Time.Sim ℝ (State Q) (Mem Q FL FP FR FB)} (h : Kin S g s.m s'.m) (x : Asked) (hx : 0 < x.dt) :
    call S ax sc dtM0 fuel (loadSim S s s') x = call S ax sc dtM0 fuel s x := by
  have key : Time.outerStep (ε := Empty) dtM0 (Time.next (machine S)) (fun h s => .ok (Time.stepOf (machine S) ax sc h s)) fuel x.dt
      { loadSim S s s' with m := initiate S x (loadSim S s s').m } =
      Time.outerStep (ε := Empty) dtM0 (Time.next (machine S)) (fun h s => .ok (Time.stepOf (machine S) ax sc h s)) fuel x.dt
      { s with m := initiate S x s.m } := by
    unfold Time.outerStep
    rw [if_neg (not_le.2 hx), if_neg (not_le.2 hx)]
    cases fuel with
    | zero => rw [Time.subLoop, Time.subLoop, if_pos hx, if_pos hx]
    | succ f =>
      rw [Time.subLoop, Time.subLoop, if_pos hx, if_pos hx]
      have h : Relate.Told (machine S) (Time.next (machine S) { loadSim S s s' with m := initiate S x (loadSim S s s').m })
          (Time.next (machine S) { s with m := initiate S x s.m }) :=
        ⟨rfl, rfl, rfl, rfl, rfl, fun t tl e => C109_whole_update hH h x t tl e⟩
      simp only [Relate.step_told ax sc _ h]
  unfold call
  rw [if_neg (not_le.2 hx), if_neg (not_le.2 hx), key]

theorem idle_simulation [AddCommGroup Q] [Module ℝ Q] (ax : Time.Aux ℝ (State Q)) (sc : Time.Scheme ℝ) (dtM0 : ℝ)
    (fuel : ℕ) (calls : List Asked) (s e : Time.Sim ℝ (State Q) (Mem Q FL FP FR FB)) (hs : Idle S g s.m)
    (he : calls.foldlM (call S ax sc dtM0 fuel) s = some e) : Idle S g e.m := by
  have hm : Relate.Remembers (fun m => ¬ Idle S g m) (machine S) :=
    ⟨fun t tl e m h hc => h (idle_update t tl e m hc), fun m h hc => h (idle_evaluate m hc), fun m h => h⟩
  induction calls generalizing s with
  | nil =>
    cases he
    exact hs
  | cons x calls ih =>
    rw [List.foldlM_cons] at he
    cases h1 : call S ax sc dtM0 fuel s x with
    | none => rw [h1] at he; cases he
    | some e1 =>
      rw [h1] at he
      refine ih e1 ?_ he
      unfold call at h1
      split_ifs at h1 with h0
      · cases h1
        exact hs
      · split at h1
        · rename_i hr
          cases h1
          by_contra hc
          exact Relate.call_ok hm ax sc dtM0 fuel _ { s with m := initiate S x s.m } _ _ hr hc (idle_initiate x _ hs)
        · cases h1

/-- C109: simulate a system of bodies, rods, points and lines (`before`), save it, load it into another one read from the same
file and with any history of its own (`other`), and go on (`after`): everything is exactly as in the simulation that was not
interrupted, once a call with a positive time step has been made.  Calls with other time steps do nothing. -/
theorem C109_whole [AddCommGroup Q] [Module ℝ Q] (hS : Sound S) (hH : Held S) (ax : Time.Aux ℝ (State Q)) (sc : Time.Scheme ℝ)
    (dtM0 : ℝ) (fuel : ℕ) (before other after : List Asked) (s₀ s₀' s s' : Time.Sim ℝ (State Q) (Mem Q FL FP FR FB))
    (h₀ : Kin S g s₀.m s₀'.m) (hs : before.foldlM (call S ax sc dtM0 fuel) s₀ = some s)
    (hs' : other.foldlM (call S ax sc dtM0 fuel) s₀' = some s') (hp : ∃ x ∈ after, 0 < x.dt) :
    after.foldlM (call S ax sc dtM0 fuel) (loadSim S s s') = (before ++ after).foldlM (call S ax sc dtM0 fuel) s₀ := by
  have h : Kin S g s.m s'.m :=
    ⟨C110_simulation hS ax sc dtM0 fuel before s₀ s h₀.conn hs, C110_simulation hS ax sc dtM0 fuel other s₀' s' h₀.conn' hs',
      idle_simulation ax sc dtM0 fuel before s₀ s h₀.idle hs, idle_simulation ax sc dtM0 fuel other s₀' s' h₀.idle' hs'⟩
  rw [List.foldlM_append, hs]
  change _ = after.foldlM (call S ax sc dtM0 fuel) s
  clear hs
  induction after with
  | nil => exact absurd hp.choose_spec.1 List.not_mem_nil
  | cons x after ih =>
    rw [List.foldlM_cons, List.foldlM_cons]
    by_cases hx : 0 < x.dt
    · rw [C109_whole_call hH ax sc dtM0 fuel h x hx]
    · have e1 : ∀ s, call S ax sc dtM0 fuel s x = some s := fun s => by
        unfold call
        rw [if_pos (not_lt.mp hx)]
      rw [e1, e1]
      refine ih ?_
      obtain ⟨y, hy, hpos⟩ := hp
      rcases List.mem_cons.mp hy with rfl | hy
      · exact absurd hpos hx
      · exact ⟨y, hy, hpos⟩

/-! ## A case -/

theorem hung_held : Held hung := by
  intro k hk p
  have : k = 0 ∨ k = 1 := by
    have : k < 2 := hk
    omega
  rcases this with rfl | rfl <;> cases p
  · exact .inl ⟨0, by decide, List.mem_singleton.mpr rfl⟩
  · exact .inl ⟨1, by decide, List.mem_singleton.mpr rfl⟩
  · exact .inl ⟨2, by decide, List.mem_singleton.mpr rfl⟩
  · exact .inr ⟨0, by decide, .inr (List.mem_singleton.mpr rfl)⟩

theorem hung_start (t tl : ℝ) (e : State ℝ) (m : Mem ℝ Unit Unit Unit Unit) : Connected hung (update hung t tl e m) := by
  have h := C110_start hung_sound (fun i hi hk => ?_) (fun i _ hk => ?_) (fun _ => 0) t tl e m
  · simpa [fixBodies, fixBody, hung] using h
  · have hi' : i = 0 ∨ i = 1 ∨ i = 2 := by
      have : i < 3 := hi
      omega
    rcases hi' with rfl | rfl | rfl
    · exact ⟨some 0, _, List.mem_singleton.mpr rfl⟩
    · exact ⟨none, _, List.mem_singleton.mpr rfl⟩
    · simp [hung] at hk
  · simp [hung] at hk

/-- Memory full of zeros. -/
noncomputable def blank : Mem ℝ Unit Unit Unit Unit where
  t := 0
  line _ := ⟨⟨fun _ => 0, fun _ => 0, .PINNED, .PINNED, 0, 0⟩, ()⟩
  point _ := ⟨0, 0, 0, ()⟩
  rod _ := ⟨0, 0, 0, 0, 0, fun _ => 0, fun _ => 0, 0, 0, ()⟩
  body _ := ⟨0, 0, 0, 0, 1, 0, 0, ()⟩
  ground := ⟨0, 0, 0, 0, 1, 0, 0, ()⟩

/-- A floating body with a rod hanging from it, started at `e`, moved for one call, saved, loaded into a system that was started
elsewhere (at `e'`) and has made another call, and moved on. -/
example (ax : Time.Aux ℝ (State ℝ)) (sc : Time.Scheme ℝ) (e e' : State ℝ) (x x' y : Asked) (hy : y.dt = 1 / 10) (r rd : ℕ → State ℝ)
    (s s' : Time.Sim ℝ (State ℝ) (Mem ℝ Unit Unit Unit Unit))
    (hs : call hung ax sc (1 / 10) 9 ⟨0, 0, r, rd, 0, update hung 0 0 e blank⟩ x = some s)
    (hs' : call hung ax sc (1 / 10) 9 ⟨0, 0, r, rd, 0, update hung 0 0 e' blank⟩ x' = some s') :
    call hung ax sc (1 / 10) 9 (loadSim hung s s') y = call hung ax sc (1 / 10) 9 s y := by
  have hb : Idle hung (0, ()) blank :=
    ⟨rfl, fun _ _ => ⟨rfl, rfl⟩, fun _ _ => ⟨rfl, rfl⟩, fun _ _ => ⟨rfl, rfl⟩, fun _ _ => ⟨rfl, rfl⟩⟩
  have h := C109_whole hung_sound hung_held ax sc (1 / 10) 9 [x] [x'] [y] ⟨0, 0, r, rd, 0, update hung 0 0 e blank⟩
    ⟨0, 0, r, rd, 0, update hung 0 0 e' blank⟩ s s'
    ⟨hung_start _ _ _ _, hung_start _ _ _ _, idle_update _ _ _ _ hb, idle_update _ _ _ _ hb⟩
    (by rw [List.foldlM_cons, hs]; rfl) (by rw [List.foldlM_cons, hs']; rfl) ⟨y, List.mem_cons_self, by rw [hy]; norm_num⟩
  rw [List.cons_append, List.nil_append, List.foldlM_cons, List.foldlM_cons, hs] at h
  simpa using h

end MD.Whole
