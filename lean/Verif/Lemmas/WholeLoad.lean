import Verif.Lemmas.Connected

/-!
# The accelerations that are given are written before they are read
-/

set_option linter.unusedSimpArgs false
set_option linter.unusedSectionVars false
set_option linter.unusedVariables false

namespace MD.Whole

open MD.Mooring Matrix
open MD.Moored (Kind)

variable {Q FL FP FR FB Wt : Type} {S : System Q FL FP FR FB Wt}

theorem mem_ext {m m' : Mem Q FL FP FR FB} (h1 : m.t = m'.t) (h2 : m.line = m'.line) (h3 : m.point = m'.point) (h4 : m.rod = m'.rod)
    (h5 : m.body = m'.body) (h6 : m.ground = m'.ground) : m = m' := by
  obtain ⟨t, line, point, rod, body, ground⟩ := m
  obtain ⟨t', line', point', rod', body', ground'⟩ := m'
  cases h1; cases h2; cases h3; cases h4; cases h5; cases h6
  rfl

/-- Other accelerations. -/
def setAcc (A R : ℕ → V × V) (m : Mem Q FL FP FR FB) : Mem Q FL FP FR FB :=
  { m with
    body := fun b => { m.body b with acc := A b }
    rod := fun i => { m.rod i with acc := R i } }

variable {A R : ℕ → V × V}

theorem setAcc_self (m : Mem Q FL FP FR FB) : setAcc (fun b => (m.body b).acc) (fun i => (m.rod i).acc) m = m := rfl

theorem foldl_acc {α : Type} (F : Mem Q FL FP FR FB → α → Mem Q FL FP FR FB) (l : List α)
    (h : ∀ m, ∀ a ∈ l, F (setAcc A R m) a = setAcc A R (F m a)) (m : Mem Q FL FP FR FB) :
    l.foldl F (setAcc A R m) = setAcc A R (l.foldl F m) := by
  induction l generalizing m with
  | nil => rfl
  | cons a l ih =>
    rw [List.foldl_cons, List.foldl_cons, h m a List.mem_cons_self, ih fun m b hb => h m b (List.mem_cons_of_mem _ hb)]

theorem movePoint_acc (i : ℕ) (x xd : V) (m : Mem Q FL FP FR FB) :
    movePoint S i x xd (setAcc A R m) = setAcc A R (movePoint S i x xd m) := rfl

theorem setRod_acc (i : ℕ) (f : Rod Q FR → Rod Q FR) (hf : ∀ (r : Rod Q FR) (a : V × V), f { r with acc := a } = { f r with acc := a })
    (m : Mem Q FL FP FR FB) : setRod i f (setAcc A R m) = setAcc A R (setRod i f m) := by
  refine mem_ext rfl rfl rfl (funext fun j => ?_) rfl rfl
  by_cases h : j = i
  · subst h
    simp only [setRod, setAcc, Function.update_self]
    exact hf _ _
  · simp [setRod, setAcc, Function.update_of_ne h]

theorem rodEnds_acc (i : ℕ) (r : Rod Q FR) (a : V × V) : rodEnds S i { r with acc := a } = { rodEnds S i r with acc := a } := by
  unfold rodEnds
  split_ifs <;> rfl

theorem passRod_acc (i : ℕ) (m : Mem Q FL FP FR FB) : passRod S i (setAcc A R m) = setAcc A R (passRod S i m) := by
  have h0 : rodEnds S i ((setAcc A R m).rod i) = { rodEnds S i (m.rod i) with acc := R i } := rodEnds_acc i (m.rod i) (R i)
  refine mem_ext rfl ?_ rfl (funext fun j => ?_) rfl rfl
  · simp only [passRod, h0]
    by_cases hN : 0 < S.rodN i
    · simp [hN, setAcc]
    · simp [hN, setAcc]
  · by_cases h : j = i
    · subst h
      change (passRod S j (setAcc A R m)).rod j = { (passRod S j m).rod j with acc := R j }
      simp only [passRod, h0, Function.update_self]
      by_cases hN : 0 < S.rodN j
      · simp only [if_pos hN]
      · simp only [if_neg hN]
        rfl
    · simp [passRod, setAcc, Function.update_of_ne h]

theorem rodKin_acc (i : ℕ) (x v dir w : V) (m : Mem Q FL FP FR FB) :
    rodKin S i x v dir w (setAcc A R m) = setAcc A R (rodKin S i x v dir w m) := by
  unfold rodKin
  split_ifs
  · dsimp only
    rw [setRod_acc i _ (fun _ _ => rfl), passRod_acc, setRod_acc i _ (fun _ _ => rfl)]
  · dsimp only
    rw [setRod_acc i _ (fun _ _ => rfl), setRod_acc i _ (fun _ _ => rfl)]

theorem passBody_acc (b : Option ℕ) (B : Body Q FB) (m : Mem Q FL FP FR FB) :
    passBody S b B (setAcc A R m) = setAcc A R (passBody S b B m) := by
  unfold passBody
  dsimp only
  rw [foldl_acc _ _ (fun m a _ => movePoint_acc _ _ _ m), foldl_acc _ _ (fun m a _ => rodKin_acc _ _ _ _ _ m)]

/-- The kinematics of a body are passed on, not its acceleration. -/
theorem passBody_noacc (b : Option ℕ) (B : Body Q FB) (a : V × V) (m : Mem Q FL FP FR FB) :
    passBody S b { B with acc := a } m = passBody S b B m := rfl

theorem ph1_acc (t : ℝ) (m : Mem Q FL FP FR FB) : ph1 S t (setAcc A R m) = setAcc A R (ph1 S t m) :=
  passBody_acc none (bodyFair S t m.ground) { m with ground := bodyFair S t m.ground, t := t }

theorem fairPoint_acc (tl : ℝ) (m : Mem Q FL FP FR FB) (i : ℕ) :
    fairPoint S tl (setAcc A R m) i = setAcc A R (fairPoint S tl m i) := by
  unfold fairPoint
  split_ifs <;> rfl

/-! ## What a body leaves alone -/

/-- Accelerations and what is given, of bodies, rods and the ground, and all of the bodies. -/
def aside (m : Mem Q FL FP FR FB) := (m.body, m.ground, fun i => ((m.rod i).acc, (m.rod i).ves, (m.rod i).F))

theorem aside_setRod (i : ℕ) (f : Rod Q FR → Rod Q FR)
    (hf : ∀ r, (f r).acc = r.acc ∧ (f r).ves = r.ves ∧ (f r).F = r.F) (m : Mem Q FL FP FR FB) :
    aside (setRod i f m) = aside m := by
  refine Prod.ext rfl (Prod.ext rfl (funext fun j => ?_))
  by_cases h : j = i
  · subst h
    simp only [aside, setRod, Function.update_self]
    rw [(hf _).1, (hf _).2.1, (hf _).2.2]
  · simp [aside, setRod, Function.update_of_ne h]

theorem aside_passRod (i : ℕ) (m : Mem Q FL FP FR FB) : aside (passRod S i m) = aside m := by
  refine Prod.ext rfl (Prod.ext rfl (funext fun j => ?_))
  by_cases h : j = i
  · subst h
    simp only [aside, passRod, Function.update_self, rodEnds]
    split_ifs <;> rfl
  · simp [aside, passRod, Function.update_of_ne h]

theorem aside_rodKin (i : ℕ) (x v dir w : V) (m : Mem Q FL FP FR FB) : aside (rodKin S i x v dir w m) = aside m := by
  unfold rodKin
  split_ifs
  · dsimp only
    rw [aside_setRod i (fun R : Rod Q FR => { R with q := S.mat R.quat *ᵥ S.q0 i }) fun _ => ⟨rfl, rfl, rfl⟩, aside_passRod,
      aside_setRod i (fun R : Rod Q FR => { R with pos := x, quat := S.between (S.q0 i) dir, vel := v, w := w }) fun _ => ⟨rfl, rfl, rfl⟩]
  · dsimp only
    rw [aside_setRod i (fun R : Rod Q FR => { R with q := S.mat R.quat *ᵥ S.q0 i }) fun _ => ⟨rfl, rfl, rfl⟩,
      aside_setRod i (fun R : Rod Q FR => { R with pos := x, vel := v }) fun _ => ⟨rfl, rfl, rfl⟩]

theorem aside_passBody (b : Option ℕ) (B : Body Q FB) (m : Mem Q FL FP FR FB) : aside (passBody S b B m) = aside m := by
  unfold passBody
  dsimp only
  rw [foldl_same aside _ _ fun m a _ => aside_rodKin _ _ _ _ _ m]
  exact foldl_same aside _ _ (fun m a _ => by rfl) m

/-! ## `Update` with other accelerations -/

theorem body_eq {B B' : Body Q FB} (h : B' = { B with acc := B'.acc }) (h' : B'.acc = B.acc) : B' = B := by
  rw [h, h']

/-- The accelerations that differ are those that are given. -/
def Given (S : System Q FL FP FR FB Wt) (l : List ℕ) (A : ℕ → V × V) (m : Mem Q FL FP FR FB) : Prop :=
  ∀ b, A b = (m.body b).acc ∨ b ∈ l ∧ (S.bkind b = .COUPLED ∨ S.bkind b = .CPLDPIN ∧ (A b).2 = (m.body b).acc.2)

@[inherit_doc Given]
def GivenR (S : System Q FL FP FR FB Wt) (l : List ℕ) (R : ℕ → V × V) (m : Mem Q FL FP FR FB) : Prop :=
  ∀ i, R i = (m.rod i).acc ∨ i ∈ l ∧ (S.rkind i = .COUPLED ∨ S.rkind i = .CPLDPIN ∧ (R i).2 = (m.rod i).acc.2)

theorem setAcc_putBody (b : ℕ) (B : Body Q FB) (a : V × V) (m : Mem Q FL FP FR FB) :
    { setAcc A R m with body := Function.update (setAcc A R m).body b { B with acc := a } } =
      setAcc (Function.update A b a) R { m with body := Function.update m.body b B } := by
  refine mem_ext rfl rfl rfl rfl (funext fun c => ?_) rfl
  by_cases h : c = b
  · subst h; simp [setAcc]
  · simp [setAcc, Function.update_of_ne h]

theorem fairBody_acc (tl : ℝ) (m : Mem Q FL FP FR FB) (b : ℕ) (l : List ℕ) (h : Given S (b :: l) A m) :
    ∃ A', fairBody S tl (setAcc A R m) b = setAcc A' R (fairBody S tl m b) ∧ Given S l A' (fairBody S tl m b) := by
  have other : ∀ (m' : Mem Q FL FP FR FB) (A' : ℕ → V × V), (∀ c, c ≠ b → (m'.body c).acc = (m.body c).acc) →
      A' b = (m'.body b).acc → (∀ c, c ≠ b → A' c = A c) → Given S l A' m' := by
    intro m' A' h1 h2 h3 c
    by_cases hc : c = b
    · subst hc; exact .inl h2
    · rw [h1 c hc, h3 c hc]
      rcases h c with h | ⟨h, h'⟩
      · exact .inl h
      · exact .inr ⟨(List.mem_cons.mp h).resolve_left hc, h'⟩
  have hA : S.bkind b ≠ .COUPLED → S.bkind b ≠ .CPLDPIN → A b = (m.body b).acc := by
    intro h1 h2
    rcases h b with h | ⟨-, h | h⟩
    · exact h
    · exact absurd h h1
    · exact absurd h.1 h2
  unfold fairBody
  cases hk : S.bkind b with
  | FREE => exact ⟨A, rfl, other m A (fun _ _ => rfl) (hA (by simp [hk]) (by simp [hk])) fun _ _ => rfl⟩
  | FIXED => exact ⟨A, rfl, other m A (fun _ _ => rfl) (hA (by simp [hk]) (by simp [hk])) fun _ _ => rfl⟩
  | COUPLED =>
    refine ⟨Function.update A b (m.body b).ves.2.2, ?_, other _ _ (fun c hc => ?_) ?_ fun c hc => Function.update_of_ne hc _ _⟩
    · rw [← passBody_acc]
      exact congrArg (passBody S (some b) (bodyFair S tl (m.body b))) (setAcc_putBody b (bodyFair S tl (m.body b)) _ m)
    · have := congrArg Prod.fst (aside_passBody (S := S) (some b) (bodyFair S tl (m.body b))
        { m with body := Function.update m.body b (bodyFair S tl (m.body b)) })
      simp only [aside] at this
      dsimp only
      rw [this, Function.update_of_ne hc]
    · have := congrArg Prod.fst (aside_passBody (S := S) (some b) (bodyFair S tl (m.body b))
        { m with body := Function.update m.body b (bodyFair S tl (m.body b)) })
      simp only [aside] at this
      dsimp only
      rw [this, Function.update_self, Function.update_self]
      rfl
  | CPLDPIN =>
    have h2 : (A b).2 = (m.body b).acc.2 := by
      rcases h b with h | ⟨-, h | h⟩
      · rw [h]
      · rw [hk] at h; cases h
      · exact h.2
    refine ⟨Function.update A b ((m.body b).ves.2.2.1, (A b).2), ?_, other _ _ (fun c hc => ?_) ?_ fun c hc => Function.update_of_ne hc _ _⟩
    · refine mem_ext rfl rfl rfl rfl (funext fun c => ?_) rfl
      by_cases h : c = b
      · subst h; simp [setAcc]
      · simp [setAcc, Function.update_of_ne h]
    · simp [Function.update_of_ne hc]
    · simp [h2]

theorem fairBodies_acc (tl : ℝ) (l : List ℕ) (m : Mem Q FL FP FR FB) (A : ℕ → V × V) (h : Given S l A m) :
    l.foldl (fairBody S tl) (setAcc A R m) =
      setAcc (fun b => ((l.foldl (fairBody S tl) m).body b).acc) R (l.foldl (fairBody S tl) m) := by
  induction l generalizing m A with
  | nil =>
    have : A = fun b => (m.body b).acc := funext fun b => (h b).elim id fun h => absurd h.1 List.not_mem_nil
    rw [this]
    rfl
  | cons b l ih =>
    obtain ⟨A', h1, h2⟩ := fairBody_acc (R := R) tl m b l h
    rw [List.foldl_cons, List.foldl_cons, h1, ih _ _ h2]

theorem fairRod_acc (tl : ℝ) (m : Mem Q FL FP FR FB) (i : ℕ) (l : List ℕ) (h : GivenR S (i :: l) R m) :
    ∃ R', fairRod S tl (setAcc A R m) i = setAcc A R' (fairRod S tl m i) ∧ GivenR S l R' (fairRod S tl m i) := by
  have other : ∀ (m' : Mem Q FL FP FR FB) (R' : ℕ → V × V), (∀ c, c ≠ i → (m'.rod c).acc = (m.rod c).acc) →
      R' i = (m'.rod i).acc → (∀ c, c ≠ i → R' c = R c) → GivenR S l R' m' := by
    intro m' A' h1 h2 h3 c
    by_cases hc : c = i
    · subst hc; exact .inl h2
    · rw [h1 c hc, h3 c hc]
      rcases h c with h | ⟨h, h'⟩
      · exact .inl h
      · exact .inr ⟨(List.mem_cons.mp h).resolve_left hc, h'⟩
  have hA : S.rkind i ≠ .COUPLED → S.rkind i ≠ .CPLDPIN → R i = (m.rod i).acc := by
    intro h1 h2
    rcases h i with h | ⟨-, h | h⟩
    · exact h
    · exact absurd h h1
    · exact absurd h.1 h2
  have put : ∀ (f : Rod Q FR → Rod Q FR) (a : V × V), (f { m.rod i with acc := R i } = { f (m.rod i) with acc := a }) →
      setRod i f (setAcc A R m) = setAcc A (Function.update R i a) (setRod i f m) := by
    intro f a hf
    refine mem_ext rfl rfl rfl (funext fun c => ?_) rfl rfl
    by_cases h : c = i
    · subst h; simp [setRod, setAcc, hf]
    · simp [setRod, setAcc, Function.update_of_ne h]
  unfold fairRod
  cases hk : S.rkind i with
  | FREE => exact ⟨R, rfl, other m R (fun _ _ => rfl) (hA (by simp [hk]) (by simp [hk])) fun _ _ => rfl⟩
  | FIXED => exact ⟨R, rfl, other m R (fun _ _ => rfl) (hA (by simp [hk]) (by simp [hk])) fun _ _ => rfl⟩
  | PINNED => exact ⟨R, rfl, other m R (fun _ _ => rfl) (hA (by simp [hk]) (by simp [hk])) fun _ _ => rfl⟩
  | COUPLED =>
    refine ⟨Function.update R i (m.rod i).ves.2.2, ?_, other _ _ (fun c hc => ?_) ?_ fun c hc => Function.update_of_ne hc _ _⟩
    · rw [← passRod_acc]
      exact congrArg (passRod S i) (put _ _ rfl)
    · simp [passRod, setRod, Function.update_of_ne hc]
    · rw [Function.update_self]
      simp only [passRod, setRod, Function.update_self, rodEnds]
      split_ifs <;> rfl
  | CPLDPIN =>
    have h2 : (R i).2 = (m.rod i).acc.2 := by
      rcases h i with h | ⟨-, h | h⟩
      · rw [h]
      · rw [hk] at h; cases h
      · exact h.2
    refine ⟨Function.update R i ((m.rod i).ves.2.2.1, (R i).2), put _ _ rfl, other _ _ (fun c hc => ?_) ?_
      fun c hc => Function.update_of_ne hc _ _⟩
    · simp [setRod, Function.update_of_ne hc]
    · simp [setRod, h2]

theorem fairRods_acc (tl : ℝ) (l : List ℕ) (m : Mem Q FL FP FR FB) (R : ℕ → V × V) (h : GivenR S l R m) :
    l.foldl (fairRod S tl) (setAcc A R m) =
      setAcc A (fun i => ((l.foldl (fairRod S tl) m).rod i).acc) (l.foldl (fairRod S tl) m) := by
  induction l generalizing m R with
  | nil =>
    have : R = fun b => (m.rod b).acc := funext fun b => (h b).elim id fun h => absurd h.1 List.not_mem_nil
    rw [this]
    rfl
  | cons b l ih =>
    obtain ⟨A', h1, h2⟩ := fairRod_acc (A := A) tl m b l h
    rw [List.foldl_cons, List.foldl_cons, h1, ih _ _ h2]

theorem body_fairRod (tl : ℝ) (m : Mem Q FL FP FR FB) (i : ℕ) : (fairRod S tl m i).body = m.body := by
  unfold fairRod
  split <;> rfl

theorem racc_fairBody (tl : ℝ) (m : Mem Q FL FP FR FB) (b : ℕ) :
    (fun i => ((fairBody S tl m b).rod i).acc) = fun i => (m.rod i).acc := by
  unfold fairBody
  split
  · have := congrArg (fun x => x.2.2) (aside_passBody (S := S) (some b) (bodyFair S tl (m.body b))
      { m with body := Function.update m.body b (bodyFair S tl (m.body b)) })
    funext i
    exact congrArg Prod.fst (congrFun this i)
  · rfl
  · rfl

/-- `Update` writes the accelerations that are given before it reads them. -/
theorem update_acc (t tl : ℝ) (e : State Q) (m : Mem Q FL FP FR FB) (hA : Given S (List.range S.nb) A m)
    (hR : GivenR S (List.range S.nr) R m) : update S t tl e (setAcc A R m) = update S t tl e m := by
  have h1 : aside (ph1 S t m) = (m.body, bodyFair S t m.ground, fun i => ((m.rod i).acc, (m.rod i).ves, (m.rod i).F)) :=
    aside_passBody none _ _
  have hb : (ph1 S t m).body = m.body := congrArg Prod.fst h1
  have hr : ∀ i, ((ph1 S t m).rod i).acc = (m.rod i).acc := fun i => congrArg Prod.fst (congrFun (congrArg (fun x => x.2.2) h1) i)
  have hr2 : (fun i => (((List.range S.nb).foldl (fairBody S tl) (ph1 S t m)).rod i).acc) = fun i => (m.rod i).acc :=
    (foldl_same (fun m => fun i => (m.rod i).acc) _ _ (fun m b _ => racc_fairBody tl m b) _).trans (funext hr)
  have k : (List.range S.nr).foldl (fairRod S tl) ((List.range S.nb).foldl (fairBody S tl) (ph1 S t (setAcc A R m))) =
      (List.range S.nr).foldl (fairRod S tl) ((List.range S.nb).foldl (fairBody S tl) (ph1 S t m)) := by
    rw [ph1_acc, fairBodies_acc tl _ _ A (by intro b; rw [hb]; exact hA b), fairRods_acc tl _ _ R
      (by intro i; rw [congrFun hr2 i]; exact hR i)]
    have := foldl_same (fun m => m.body) _ (List.range S.nr) (fun m i _ => body_fairRod (S := S) tl m i)
      ((List.range S.nb).foldl (fairBody S tl) (ph1 S t m))
    rw [← this]
    exact setAcc_self _
  unfold update
  change stateLines S e.1 ((List.range S.np).foldl (statePoint S e.2.1) ((List.range S.nr).foldl (stateRod S e.2.2.1)
    ((List.range S.nb).foldl (stateBody S e.2.2.2) ((List.range S.np).foldl (fairPoint S tl)
    ((List.range S.nr).foldl (fairRod S tl) ((List.range S.nb).foldl (fairBody S tl) (ph1 S t (setAcc A R m)))))))) = _
  rw [k]
  rfl

/-! ## Other differences of the velocities that are given -/

/-- Other `rdd_ves`. -/
def setRdd (A R : ℕ → V × V) (m : Mem Q FL FP FR FB) : Mem Q FL FP FR FB :=
  { m with
    body := fun b => { m.body b with ves := ((m.body b).ves.1, (m.body b).ves.2.1, A b) }
    rod := fun i => { m.rod i with ves := ((m.rod i).ves.1, (m.rod i).ves.2.1, R i) } }

theorem passRod_rdd (i : ℕ) (m : Mem Q FL FP FR FB) : passRod S i (setRdd A R m) = setRdd A R (passRod S i m) := by
  have h0 : rodEnds S i ((setRdd A R m).rod i) =
      { rodEnds S i (m.rod i) with ves := ((m.rod i).ves.1, (m.rod i).ves.2.1, R i) } := by
    unfold rodEnds
    split_ifs <;> rfl
  have hv : (rodEnds S i (m.rod i)).ves = (m.rod i).ves := by
    unfold rodEnds
    split_ifs <;> rfl
  refine mem_ext rfl ?_ rfl (funext fun j => ?_) rfl rfl
  · simp only [passRod, h0]
    by_cases hN : 0 < S.rodN i
    · simp [hN, setRdd]
    · simp [hN, setRdd]
  · by_cases h : j = i
    · subst h
      change (passRod S j (setRdd A R m)).rod j = { (passRod S j m).rod j with
        ves := (((passRod S j m).rod j).ves.1, ((passRod S j m).rod j).ves.2.1, R j) }
      simp only [passRod, h0, Function.update_self]
      by_cases hN : 0 < S.rodN j
      · simp only [if_pos hN, hv]
      · simp only [if_neg hN, hv]
        rfl
    · simp [passRod, setRdd, Function.update_of_ne h]

/-- The `rdd_ves` that differ are those that will be given. -/
def Asks (S : System Q FL FP FR FB Wt) (l : List ℕ) (A : ℕ → V × V) (m : Mem Q FL FP FR FB) : Prop :=
  ∀ b, A b = (m.body b).ves.2.2 ∨ b ∈ l ∧ (S.bkind b = .COUPLED ∨ S.bkind b = .CPLDPIN ∧ (A b).2 = (m.body b).ves.2.2.2)

@[inherit_doc Asks]
def AsksR (S : System Q FL FP FR FB Wt) (l : List ℕ) (R : ℕ → V × V) (m : Mem Q FL FP FR FB) : Prop :=
  ∀ i, R i = (m.rod i).ves.2.2 ∨ i ∈ l ∧ (S.rkind i = .COUPLED ∨ S.rkind i = .CPLDPIN ∧ (R i).2 = (m.rod i).ves.2.2.2)

theorem initBody_rdd (dt : ℝ) (x : ℕ → (V × V) × (V × V)) (m : Mem Q FL FP FR FB) (b : ℕ) (l : List ℕ) (h : Asks S (b :: l) A m) :
    ∃ A', initBody S dt x (setRdd A R m) b = setRdd A' R (initBody S dt x m b) ∧ Asks S l A' (initBody S dt x m b) := by
  have other : ∀ (m' : Mem Q FL FP FR FB) (A' : ℕ → V × V), (∀ c, c ≠ b → (m'.body c).ves.2.2 = (m.body c).ves.2.2) →
      A' b = (m'.body b).ves.2.2 → (∀ c, c ≠ b → A' c = A c) → Asks S l A' m' := by
    intro m' A' h1 h2 h3 c
    by_cases hc : c = b
    · subst hc; exact .inl h2
    · rw [h1 c hc, h3 c hc]
      rcases h c with h | ⟨h, h'⟩
      · exact .inl h
      · exact .inr ⟨(List.mem_cons.mp h).resolve_left hc, h'⟩
  have hA : S.bkind b ≠ .COUPLED → S.bkind b ≠ .CPLDPIN → A b = (m.body b).ves.2.2 := by
    intro h1 h2
    rcases h b with h | ⟨-, h | h⟩
    · exact h
    · exact absurd h h1
    · exact absurd h.1 h2
  unfold initBody
  cases hk : S.bkind b with
  | FREE => exact ⟨A, rfl, other m A (fun _ _ => rfl) (hA (by simp [hk]) (by simp [hk])) fun _ _ => rfl⟩
  | FIXED => exact ⟨A, rfl, other m A (fun _ _ => rfl) (hA (by simp [hk]) (by simp [hk])) fun _ _ => rfl⟩
  | COUPLED =>
    refine ⟨Function.update A b (newVes dt (x b) (m.body b).ves).2.2, ?_, other _ _ (fun c hc => ?_) ?_
      fun c hc => Function.update_of_ne hc _ _⟩
    · refine mem_ext rfl rfl rfl rfl (funext fun c => ?_) rfl
      by_cases h : c = b
      · subst h; simp [setRdd, newVes]
      · simp [setRdd, Function.update_of_ne h]
    · simp [Function.update_of_ne hc]
    · simp
  | CPLDPIN =>
    have h2 : (A b).2 = (m.body b).ves.2.2.2 := by
      rcases h b with h | ⟨-, h | h⟩
      · rw [h]
      · rw [hk] at h; cases h
      · exact h.2
    refine ⟨Function.update A b (newHeads dt (x b) (m.body b).ves).2.2, ?_, other _ _ (fun c hc => ?_) ?_
      fun c hc => Function.update_of_ne hc _ _⟩
    · refine mem_ext rfl rfl rfl rfl (funext fun c => ?_) rfl
      by_cases h : c = b
      · subst h; simp [setRdd, newHeads, h2]
      · simp [setRdd, Function.update_of_ne h]
    · simp [Function.update_of_ne hc]
    · simp

theorem initBodies_rdd (dt : ℝ) (x : ℕ → (V × V) × (V × V)) (l : List ℕ) (m : Mem Q FL FP FR FB) (A : ℕ → V × V) (h : Asks S l A m) :
    l.foldl (initBody S dt x) (setRdd A R m) =
      setRdd (fun b => ((l.foldl (initBody S dt x) m).body b).ves.2.2) R (l.foldl (initBody S dt x) m) := by
  induction l generalizing m A with
  | nil =>
    have : A = fun b => (m.body b).ves.2.2 := funext fun b => (h b).elim id fun h => absurd h.1 List.not_mem_nil
    rw [this]
    rfl
  | cons b l ih =>
    obtain ⟨A', h1, h2⟩ := initBody_rdd (R := R) dt x m b l h
    rw [List.foldl_cons, List.foldl_cons, h1, ih _ _ h2]

theorem initRod_rdd (dt : ℝ) (x : ℕ → (V × V) × (V × V)) (m : Mem Q FL FP FR FB) (i : ℕ) (l : List ℕ) (h : AsksR S (i :: l) R m) :
    ∃ R', initRod S dt x (setRdd A R m) i = setRdd A R' (initRod S dt x m i) ∧ AsksR S l R' (initRod S dt x m i) := by
  have other : ∀ (m' : Mem Q FL FP FR FB) (R' : ℕ → V × V), (∀ c, c ≠ i → (m'.rod c).ves.2.2 = (m.rod c).ves.2.2) →
      R' i = (m'.rod i).ves.2.2 → (∀ c, c ≠ i → R' c = R c) → AsksR S l R' m' := by
    intro m' A' h1 h2 h3 c
    by_cases hc : c = i
    · subst hc; exact .inl h2
    · rw [h1 c hc, h3 c hc]
      rcases h c with h | ⟨h, h'⟩
      · exact .inl h
      · exact .inr ⟨(List.mem_cons.mp h).resolve_left hc, h'⟩
  have hA : S.rkind i ≠ .COUPLED → S.rkind i ≠ .CPLDPIN → R i = (m.rod i).ves.2.2 := by
    intro h1 h2
    rcases h i with h | ⟨-, h | h⟩
    · exact h
    · exact absurd h h1
    · exact absurd h.1 h2
  unfold initRod
  cases hk : S.rkind i with
  | FREE => exact ⟨R, rfl, other m R (fun _ _ => rfl) (hA (by simp [hk]) (by simp [hk])) fun _ _ => rfl⟩
  | FIXED => exact ⟨R, rfl, other m R (fun _ _ => rfl) (hA (by simp [hk]) (by simp [hk])) fun _ _ => rfl⟩
  | PINNED => exact ⟨R, rfl, other m R (fun _ _ => rfl) (hA (by simp [hk]) (by simp [hk])) fun _ _ => rfl⟩
  | COUPLED =>
    refine ⟨Function.update R i (newVes dt (x i) (m.rod i).ves).2.2, ?_, other _ _ (fun c hc => ?_) ?_
      fun c hc => Function.update_of_ne hc _ _⟩
    · rw [← passRod_rdd]
      refine congrArg (passRod S i) (mem_ext rfl rfl rfl (funext fun c => ?_) rfl rfl)
      by_cases h : c = i
      · subst h; simp [setRod, setRdd, newVes]
      · simp [setRod, setRdd, Function.update_of_ne h]
    · simp [passRod, setRod, Function.update_of_ne hc]
    · rw [Function.update_self]
      simp only [passRod, setRod, Function.update_self, rodEnds]
      split_ifs <;> rfl
  | CPLDPIN =>
    have h2 : (R i).2 = (m.rod i).ves.2.2.2 := by
      rcases h i with h | ⟨-, h | h⟩
      · rw [h]
      · rw [hk] at h; cases h
      · exact h.2
    refine ⟨Function.update R i (newHeads dt (x i) (m.rod i).ves).2.2, ?_, other _ _ (fun c hc => ?_) ?_
      fun c hc => Function.update_of_ne hc _ _⟩
    · refine mem_ext rfl rfl rfl (funext fun c => ?_) rfl rfl
      by_cases h : c = i
      · subst h; simp [setRod, setRdd, newHeads, h2]
      · simp [setRod, setRdd, Function.update_of_ne h]
    · simp [setRod, Function.update_of_ne hc]
    · simp [setRod]

theorem initRods_rdd (dt : ℝ) (x : ℕ → (V × V) × (V × V)) (l : List ℕ) (m : Mem Q FL FP FR FB) (R : ℕ → V × V) (h : AsksR S l R m) :
    l.foldl (initRod S dt x) (setRdd A R m) =
      setRdd A (fun i => ((l.foldl (initRod S dt x) m).rod i).ves.2.2) (l.foldl (initRod S dt x) m) := by
  induction l generalizing m R with
  | nil =>
    have : R = fun b => (m.rod b).ves.2.2 := funext fun b => (h b).elim id fun h => absurd h.1 List.not_mem_nil
    rw [this]
    rfl
  | cons b l ih =>
    obtain ⟨A', h1, h2⟩ := initRod_rdd (A := A) dt x m b l h
    rw [List.foldl_cons, List.foldl_cons, h1, ih _ _ h2]

theorem body_initRod (dt : ℝ) (x : ℕ → (V × V) × (V × V)) (m : Mem Q FL FP FR FB) (i : ℕ) : (initRod S dt x m i).body = m.body := by
  unfold initRod
  split <;> rfl

theorem rod_initBody (dt : ℝ) (x : ℕ → (V × V) × (V × V)) (m : Mem Q FL FP FR FB) (b : ℕ) : (initBody S dt x m b).rod = m.rod := by
  unfold initBody
  split <;> rfl

/-- The beginning of a call writes the `rdd_ves` that are given before they are read. -/
theorem initiate_rdd (x : Asked) (m : Mem Q FL FP FR FB) (hA : Asks S (List.range S.nb) A m) (hR : AsksR S (List.range S.nr) R m) :
    initiate S x (setRdd A R m) = initiate S x m := by
  have hr : ((List.range S.nb).foldl (initBody S x.dt x.body) m).rod = m.rod :=
    foldl_same (fun m => m.rod) _ _ (fun m b _ => rod_initBody _ _ m b) m
  have hb := foldl_same (fun m => m.body) _ (List.range S.nr) (fun m i _ => body_initRod (S := S) x.dt x.rod m i)
    ((List.range S.nb).foldl (initBody S x.dt x.body) m)
  unfold initiate
  dsimp only
  rw [initBodies_rdd _ _ _ _ A hA, initRods_rdd _ _ _ _ R (by intro i; rw [hr]; exact hR i), ← hb]
  rfl

/-! ## What the beginning of a call leaves alone -/

theorem initBody_acc (dt : ℝ) (x : ℕ → (V × V) × (V × V)) (m : Mem Q FL FP FR FB) (b : ℕ) :
    initBody S dt x (setAcc A R m) b = setAcc A R (initBody S dt x m b) := by
  unfold initBody
  cases S.bkind b with
  | FREE => rfl
  | FIXED => rfl
  | COUPLED =>
    refine mem_ext rfl rfl rfl rfl (funext fun c => ?_) rfl
    by_cases h : c = b
    · subst h; simp [setAcc]
    · simp [setAcc, Function.update_of_ne h]
  | CPLDPIN =>
    refine mem_ext rfl rfl rfl rfl (funext fun c => ?_) rfl
    by_cases h : c = b
    · subst h; simp [setAcc]
    · simp [setAcc, Function.update_of_ne h]

theorem initRod_acc (dt : ℝ) (x : ℕ → (V × V) × (V × V)) (m : Mem Q FL FP FR FB) (i : ℕ) :
    initRod S dt x (setAcc A R m) i = setAcc A R (initRod S dt x m i) := by
  unfold initRod
  cases S.rkind i with
  | FREE => rfl
  | FIXED => rfl
  | PINNED => rfl
  | COUPLED =>
    dsimp only
    rw [setRod_acc i _ (fun _ _ => rfl), passRod_acc]
  | CPLDPIN => exact setRod_acc i _ (fun _ _ => rfl) m

theorem initPoint_acc (x : ℕ → V × V) (m : Mem Q FL FP FR FB) (i : ℕ) :
    initPoint S x (setAcc A R m) i = setAcc A R (initPoint S x m i) := by
  unfold initPoint
  split_ifs <;> rfl

theorem initiate_acc (x : Asked) (m : Mem Q FL FP FR FB) : initiate S x (setAcc A R m) = setAcc A R (initiate S x m) := by
  unfold initiate
  dsimp only
  rw [foldl_acc _ _ (fun m b _ => initBody_acc _ _ m b), foldl_acc _ _ (fun m b _ => initRod_acc _ _ m b),
    foldl_acc _ _ (fun m b _ => initPoint_acc _ m b)]

/-- Another ground. -/
def setGround (G : Body Q FB) (m : Mem Q FL FP FR FB) : Mem Q FL FP FR FB := { m with ground := G }

theorem foldl_ground {α : Type} {G : Body Q FB} (F : Mem Q FL FP FR FB → α → Mem Q FL FP FR FB) (l : List α)
    (h : ∀ m, ∀ a ∈ l, F (setGround G m) a = setGround G (F m a)) (m : Mem Q FL FP FR FB) :
    l.foldl F (setGround G m) = setGround G (l.foldl F m) := by
  induction l generalizing m with
  | nil => rfl
  | cons a l ih =>
    rw [List.foldl_cons, List.foldl_cons, h m a List.mem_cons_self, ih fun m b hb => h m b (List.mem_cons_of_mem _ hb)]

theorem initiate_ground {G : Body Q FB} (x : Asked) (m : Mem Q FL FP FR FB) :
    initiate S x (setGround G m) = setGround G (initiate S x m) := by
  unfold initiate
  dsimp only
  rw [foldl_ground, foldl_ground, foldl_ground]
  · intro m i _
    unfold initPoint
    split_ifs <;> rfl
  · intro m i _
    unfold initRod
    cases S.rkind i <;> rfl
  · intro m i _
    unfold initBody
    cases S.bkind i <;> rfl

/-- What a call leaves alone. -/
theorem initiate_ground_eq (x : Asked) (m : Mem Q FL FP FR FB) : (initiate S x m).ground = m.ground := by
  unfold initiate
  dsimp only
  rw [foldl_same (fun m => m.ground) _ _ fun m i _ => by unfold initPoint; split_ifs <;> rfl,
    foldl_same (fun m => m.ground) _ _ fun m i _ => by unfold initRod; cases S.rkind i <;> rfl,
    foldl_same (fun m => m.ground) _ _ fun m i _ => by unfold initBody; cases S.bkind i <;> rfl]

theorem initiate_bacc (x : Asked) (m : Mem Q FL FP FR FB) : (fun b => ((initiate S x m).body b).acc) = fun b => (m.body b).acc := by
  unfold initiate
  dsimp only
  refine (foldl_same (fun m => fun b => (m.body b).acc) _ _ (fun m i _ => by unfold initPoint; split_ifs <;> rfl) _).trans ?_
  refine (foldl_same (fun m => fun b => (m.body b).acc) _ _ (fun m i _ => by rw [body_initRod]) _).trans ?_
  refine foldl_same (fun m => fun b => (m.body b).acc) _ _ (fun m i _ => ?_) _
  unfold initBody
  cases S.bkind i with
  | FREE => rfl
  | FIXED => rfl
  | COUPLED =>
    funext c
    by_cases h : c = i
    · subst h; simp
    · simp [Function.update_of_ne h]
  | CPLDPIN =>
    funext c
    by_cases h : c = i
    · subst h; simp
    · simp [Function.update_of_ne h]

theorem initiate_racc (x : Asked) (m : Mem Q FL FP FR FB) : (fun b => ((initiate S x m).rod b).acc) = fun b => (m.rod b).acc := by
  have hs : ∀ (i : ℕ) (g : Rod Q FR → (V × V) × (V × V) × (V × V)) (m : Mem Q FL FP FR FB),
      (fun b => ((setRod i (fun R => { R with ves := g R }) m).rod b).acc) = fun b => (m.rod b).acc := by
    intro i g m
    funext c
    by_cases h : c = i
    · subst h; simp [setRod]
    · simp [setRod, Function.update_of_ne h]
  have hp : ∀ (i : ℕ) (m : Mem Q FL FP FR FB), (fun b => ((passRod S i m).rod b).acc) = fun b => (m.rod b).acc := by
    intro i m
    funext c
    exact congrArg Prod.fst (congrFun (congrArg (fun x => x.2.2) (aside_passRod (S := S) i m)) c)
  unfold initiate
  dsimp only
  refine (foldl_same (fun m => fun b => (m.rod b).acc) _ _ (fun m i _ => by unfold initPoint; split_ifs <;> rfl) _).trans ?_
  refine (foldl_same (fun m => fun b => (m.rod b).acc) _ _ (fun m i _ => ?_) _).trans ?_
  · unfold initRod
    cases S.rkind i with
    | FREE => rfl
    | FIXED => rfl
    | PINNED => rfl
    | COUPLED => exact (hp i _).trans (hs i _ m)
    | CPLDPIN => exact hs i _ m
  · exact foldl_same (fun m => fun b => (m.rod b).acc) _ _ (fun m i _ => by rw [rod_initBody]) _

/-- `Update` moves the ground before it reads where it is. -/
theorem update_ground {G : Body Q FB} (t tl : ℝ) (e : State Q) (m : Mem Q FL FP FR FB) (h : bodyFair S t G = bodyFair S t m.ground) :
    update S t tl e (setGround G m) = update S t tl e m := by
  have : ph1 S t (setGround G m) = ph1 S t m := by
    unfold ph1
    dsimp only [setGround]
    rw [h]
  unfold update
  exact congrArg (fun m => stateLines S e.1 ((List.range S.np).foldl (statePoint S e.2.1) ((List.range S.nr).foldl (stateRod S e.2.2.1)
    ((List.range S.nb).foldl (stateBody S e.2.2.2) ((List.range S.np).foldl (fairPoint S tl)
    ((List.range S.nr).foldl (fairRod S tl) ((List.range S.nb).foldl (fairBody S tl) m))))))) this

end MD.Whole
