import Verif.Lemmas.Settled
import Verif.Props.WholeForces

/-!
# What an evaluation writes, object by object
-/

set_option linter.unusedSimpArgs false
set_option linter.unusedSectionVars false
set_option linter.unusedVariables false
set_option linter.unnecessarySeqFocus false

namespace MD.Whole

open MD.Mooring Matrix
open MD.Moored (Kind)

variable {Q FL FP FR FB Wt : Type} {S : System Q FL FP FR FB Wt}

/-- What is given, the accelerations of bodies, and the ground. -/
def orders (m : Mem Q FL FP FR FB) :=
  ((fun i => (m.point i).ves), (fun i => (m.rod i).ves), (fun b => ((m.body b).acc, (m.body b).ves)), m.ground, m.t)

theorem orders_rhsPoint (i : ℕ) (m : Mem Q FL FP FR FB) : orders (rhsPoint S i m) = orders m := by
  refine Prod.ext (funext fun j => ?_) rfl
  by_cases h : j = i
  · subst h; simp [orders, rhsPoint]
  · simp [orders, rhsPoint, Function.update_of_ne h]

theorem orders_rhsRod (wt : ℕ → ℕ → Wt) (i : ℕ) (m : Mem Q FL FP FR FB) : orders (rhsRod S wt i m) = orders m := by
  refine Prod.ext rfl (Prod.ext (funext fun j => ?_) rfl)
  by_cases h : j = i
  · subst h; simp [orders, rhsRod]
  · simp [orders, rhsRod, Function.update_of_ne h]

theorem orders_rhsBody (wt : ℕ → ℕ → Wt) (b : ℕ) (m : Mem Q FL FP FR FB) : orders (rhsBody S wt b m) = orders m := by
  have h1 : orders ((S.rods (some b)).foldl (fun m a => rhsRod S wt a.1 m) ((S.pts (some b)).foldl (fun m a => rhsPoint S a.1 m) m)) =
      orders m := by
    rw [foldl_same orders (fun m (a : ℕ × V × V) => rhsRod S wt a.1 m) _ (fun m a _ => orders_rhsRod wt a.1 m),
      foldl_same orders (fun m (a : ℕ × V) => rhsPoint S a.1 m) _ fun m a ha => orders_rhsPoint a.1 m]
  rw [← h1]
  unfold rhsBody
  dsimp only
  generalize (S.rods (some b)).foldl (fun m a => rhsRod S wt a.1 m) _ = m'
  refine Prod.ext rfl (Prod.ext rfl (Prod.ext (funext fun c => ?_) rfl))
  by_cases h : c = b
  · subst h; simp [orders]
  · simp [orders, Function.update_of_ne h]

theorem orders_acc (i : ℕ) (m : Mem Q FL FP FR FB) (g : V × V → V × V) :
    orders (setRod i (fun R => { R with acc := g R.acc }) m) = orders m := by
  refine Prod.ext rfl (Prod.ext (funext fun j => ?_) rfl)
  by_cases h : j = i
  · subst h; simp [orders, setRod]
  · simp [orders, setRod, Function.update_of_ne h]

theorem orders_forces (m : Mem Q FL FP FR FB) : orders (forces S m) = orders m := by
  unfold forces
  dsimp only
  rw [foldl_same orders (askBody S (rodWater S m)) _ fun m b hb => by
    unfold askBody
    split_ifs
    · exact orders_rhsBody _ _ m
    · rfl]
  rw [foldl_same orders (askRod S (rodWater S m)) _ fun m b hb => by
    unfold askRod
    split_ifs
    · exact orders_rhsRod _ _ m
    · rfl]
  rw [foldl_same orders (askPoint S) _ fun m b hb => by
    unfold askPoint
    split_ifs
    · exact orders_rhsPoint _ m
    · rfl]
  rw [foldl_same orders (evalBody S (rodWater S m)) _ fun m b hb => by
    unfold evalBody
    split_ifs
    · exact orders_rhsBody _ _ m
    · rfl]
  rw [foldl_same orders (evalRod S (rodWater S m)) _ fun m b hb => by
    unfold evalRod
    cases S.rkind b with
    | FREE => exact orders_rhsRod _ _ m
    | PINNED => exact (orders_acc b _ fun a => (0, a.2)).trans (orders_rhsRod _ _ m)
    | CPLDPIN => exact (orders_acc b _ fun a => (0, a.2)).trans (orders_rhsRod _ _ m)
    | _ => rfl]
  rw [foldl_same orders (evalPoint S) _ fun m b hb => by
    unfold evalPoint
    split_ifs
    · exact orders_rhsPoint _ m
    · rfl]
  rfl

/-- The acceleration of a rod after an evaluation. -/
def accAfter (k : RKind) (a : V × V) : V × V :=
  match k with
  | .PINNED | .CPLDPIN => (0, a.2)
  | _ => a

theorem acc_rhsRod (wt : ℕ → ℕ → Wt) (i j : ℕ) (m : Mem Q FL FP FR FB) : ((rhsRod S wt i m).rod j).acc = (m.rod j).acc := by
  by_cases h : j = i
  · subst h; simp [rhsRod]
  · simp [rhsRod, Function.update_of_ne h]

theorem acc_rhsBody (wt : ℕ → ℕ → Wt) (b j : ℕ) (m : Mem Q FL FP FR FB) : ((rhsBody S wt b m).rod j).acc = (m.rod j).acc := by
  show (((S.rods (some b)).foldl (fun m a => rhsRod S wt a.1 m) ((S.pts (some b)).foldl (fun m a => rhsPoint S a.1 m) m)).rod j).acc = _
  rw [foldl_same (fun m => (m.rod j).acc) (fun m (a : ℕ × V × V) => rhsRod S wt a.1 m) _ (fun m a _ => acc_rhsRod wt a.1 j m),
    foldl_same (fun m => (m.rod j).acc) (fun m (a : ℕ × V) => rhsPoint S a.1 m) _ fun m a ha => rfl]

theorem acc_forces (i : ℕ) (hi : i < S.nr) (m : Mem Q FL FP FR FB) : ((forces S m).rod i).acc = accAfter (S.rkind i) (m.rod i).acc := by
  unfold forces
  dsimp only
  rw [foldl_same (fun m => (m.rod i).acc) (askBody S (rodWater S m)) _ fun m b hb => by
    unfold askBody
    split_ifs
    · exact acc_rhsBody _ _ _ m
    · rfl]
  rw [foldl_same (fun m => (m.rod i).acc) (askRod S (rodWater S m)) _ fun m b hb => by
    unfold askRod
    split_ifs
    · exact acc_rhsRod _ _ _ m
    · rfl]
  rw [foldl_same (fun m => (m.rod i).acc) (askPoint S) _ fun m b hb => by
    unfold askPoint
    split_ifs <;> rfl]
  rw [foldl_same (fun m => (m.rod i).acc) (evalBody S (rodWater S m)) _ fun m b hb => by
    unfold evalBody
    split_ifs
    · exact acc_rhsBody _ _ _ m
    · rfl]
  rw [foldl_once (evalRod S (rodWater S m)) _ List.nodup_range (List.mem_range.mpr hi) (fun m => (m.rod i).acc) (fun m => (m.rod i).acc)
    (accAfter (S.rkind i)) (fun m' => by
      unfold evalRod accAfter
      cases S.rkind i with
      | FREE => exact acc_rhsRod _ _ _ _
      | PINNED => dsimp only; rw [setRod_self]; dsimp only; rw [acc_rhsRod]
      | CPLDPIN => dsimp only; rw [setRod_self]; dsimp only; rw [acc_rhsRod]
      | _ => rfl) (fun c _ hc m' => by
      unfold evalRod
      cases S.rkind c with
      | FREE => exact acc_rhsRod _ _ _ _
      | PINNED => dsimp only; rw [setRod_other hc.symm, acc_rhsRod]
      | CPLDPIN => dsimp only; rw [setRod_other hc.symm, acc_rhsRod]
      | _ => rfl) (fun c _ hc m' => by
      unfold evalRod
      cases S.rkind c with
      | FREE => exact acc_rhsRod _ _ _ _
      | PINNED => dsimp only; rw [setRod_other hc.symm, acc_rhsRod]
      | CPLDPIN => dsimp only; rw [setRod_other hc.symm, acc_rhsRod]
      | _ => rfl)]
  rw [foldl_same (fun m => (m.rod i).acc) (evalPoint S) _ fun m b hb => by
    unfold evalPoint
    split_ifs <;> rfl]
  rfl

/-- What an evaluation makes of a rod: forces and straight nodes if its forces are asked for; the axis is written if it is on the
ground. -/
structure RodValued (S : System Q FL FP FR FB Wt) (o : Mem Q FL FP FR FB) (i : ℕ) (R : Rod Q FR) : Prop where
  pos : R.pos = (o.rod i).pos
  quat : R.quat = (o.rod i).quat
  vel : R.vel = (o.rod i).vel
  w : R.w = (o.rod i).w
  q : ¬ OnR S none i → R.q = (o.rod i).q
  q' : OnR S none i → R.q = S.mat (o.rod i).quat *ᵥ S.q0 i
  ves : R.ves = (o.rod i).ves
  acc : R.acc = accAfter (S.rkind i) (o.rod i).acc
  r : RodCounts S i → R.r = spaced (S.rodN i) (o.rod i).r ∧ R.rd = spaced (S.rodN i) (o.rod i).rd ∧ R.F = rodNow S o (o.rod i).r i
  r' : ¬ RodCounts S i → R.r = (o.rod i).r ∧ R.rd = (o.rod i).rd ∧ R.F = (o.rod i).F

theorem ground_rod (hS : Sound S) (m : Mem Q FL FP FR FB) (a : ℕ × V × V) (ha : a ∈ S.rods none) (hN : 0 < S.rodN a.1)
    {B : Body Q FB} {R : Rod Q FR}
    (hp : R.pos = B.pos + B.orMat *ᵥ a.2.1) (hv : R.vel = B.vel + B.w ⨯₃ (B.orMat *ᵥ a.2.1))
    (hf : S.rkind a.1 = .FIXED → R.quat = S.between (S.q0 a.1) (B.orMat *ᵥ a.2.2) ∧ R.w = B.w ∧ R.r 0 = R.pos ∧ R.rd 0 = R.vel ∧
      R.r (S.rodN a.1) = R.pos + S.rodLen a.1 • (S.mat R.quat *ᵥ S.q0 a.1) ∧
      R.rd (S.rodN a.1) = R.vel + R.w ⨯₃ (S.rodLen a.1 • (S.mat R.quat *ᵥ S.q0 a.1))) :
    told S a.1 a.2.1 a.2.2 B R = { R with q := S.mat R.quat *ᵥ S.q0 a.1 } := by
  unfold told borne
  split_ifs with hk
  · obtain ⟨h1, h2, h3, h4, h5, h6⟩ := hf hk
    simp only [laid]
    rw [← hp, ← hv, ← h1, ← h2]
    congr 1 <;>
    · funext j
      by_cases hj : j = 0
      · subst hj; simp [h3, h4]
      · by_cases hj' : j = S.rodN a.1
        · subst hj'; simp [hj, h5, h6]
        · simp [hj, hj']
  · rw [← hp, ← hv]

theorem valued_rod (hS : Sound S) (hN : ∀ i < S.nr, 0 < S.rodN i) (hl : ∀ h : Holder, ∀ a ∈ h.list S, a.1 < S.nl)
    (m : Mem Q FL FP FR FB) (hm : Connected S m) (i : ℕ) (hi : i < S.nr) : RodValued S m i ((evaluate S m).rod i) := by
  have h := mid_forces hl m
  obtain ⟨h1, h2, h3, h4, h5, -, -⟩ := h.rod i
  have hv : ((forces S m).rod i).ves = (m.rod i).ves := congrFun (congrArg (fun x => x.2.1) (orders_forces (S := S) m)) i
  have hr : RodCounts S i → ((forces S m).rod i).r = spaced (S.rodN i) (m.rod i).r ∧
      ((forces S m).rod i).rd = spaced (S.rodN i) (m.rod i).rd ∧ ((forces S m).rod i).F = rodNow S m (m.rod i).r i := by
    intro hc
    obtain ⟨c1, c2, c3⟩ := h.R i hc
    exact ⟨c2.trans (straight_eq _ _), c3.trans (straight_eq _ _), c1⟩
  have hr' : ¬ RodCounts S i → ((forces S m).rod i).r = (m.rod i).r ∧ ((forces S m).rod i).rd = (m.rod i).rd ∧
      ((forces S m).rod i).F = (m.rod i).F := by
    intro hc
    rw [forces_rod i hc m]
    exact ⟨rfl, rfl, rfl⟩
  by_cases ho : OnR S none i
  · obtain ⟨x, hx⟩ := ho
    obtain ⟨o1, o2⟩ := hm.rod none _ hx
    have e : (evaluate S m).rod i = { (forces S m).rod i with q := S.mat ((forces S m).rod i).quat *ᵥ S.q0 i } := by
      rw [evaluate_eq, passBody_rod_on hS none _ _ (i, x) hx (hN i hi)]
      refine ground_rod hS m (i, x) hx (hN i hi) ?_ ?_ fun hk => ?_
      · rw [h1, h.ground]; exact o1.1
      · rw [h3, h.ground]; exact o1.2
      · have hc : ¬ RodCounts S i := by
          rintro (⟨-, hk'⟩ | ⟨b, -, hb⟩)
          · exact hk' hk
          · cases onR_unique hS hx hb
        obtain ⟨r1, r2, r3, -, -⟩ := hm.rodHolds i hi
        obtain ⟨r3, r4⟩ := r3 (hN i hi)
        rw [forces_rod i hc m, h.ground]
        exact ⟨(o2 hk).1, (o2 hk).2, r1, r2, r3, r4⟩
    rw [e]
    refine ⟨h1, h2, h3, h4, fun hn => absurd ⟨x, hx⟩ hn, fun _ => ?_, hv, acc_forces i hi m, hr, hr'⟩
    dsimp only
    rw [h2]
  · rw [evaluate_eq, passBody_rod_out _ _ _ _ ho]
    exact ⟨h1, h2, h3, h4, fun _ => h5, fun hn => absurd hn ho, hv, acc_forces i hi m, hr, hr'⟩

theorem valued_point (hS : Sound S) (hl : ∀ h : Holder, ∀ a ∈ h.list S, a.1 < S.nl) (m : Mem Q FL FP FR FB) (hm : Connected S m) (i : ℕ) :
    (PointCounts S i → (evaluate S m).point i = { m.point i with F := pointNow S m i }) ∧
    (¬ PointCounts S i → (evaluate S m).point i = m.point i) := by
  have h := mid_forces hl m
  have hv : ((forces S m).point i).ves = (m.point i).ves := congrFun (congrArg (fun x => x.1) (orders_forces (S := S) m)) i
  have e : (evaluate S m).point i = (forces S m).point i := by
    rw [evaluate_eq]
    by_cases ho : OnP S none i
    · obtain ⟨x, hx⟩ := ho
      obtain ⟨o1, o2⟩ := hm.point none _ hx
      rw [show ((passBody S none (forces S m).ground (forces S m)).point i) = _ from passBody_point_on hS none _ _ (i, x) hx]
      rw [h.ground]
      have o1' : (m.point i).r = m.ground.pos + m.ground.orMat *ᵥ x := o1
      have o2' : (m.point i).rd = m.ground.vel + m.ground.w ⨯₃ (m.ground.orMat *ᵥ x) := o2
      rw [← (h.point i).1] at o1'
      rw [← (h.point i).2] at o2'
      rw [← o1', ← o2']
    · exact passBody_point_out _ _ _ _ ho
  rw [e]
  constructor
  · intro hc
    obtain ⟨p1, p2⟩ := h.point i
    rw [← h.P i hc]
    dsimp only
    rw [← hv, ← p1, ← p2]
  · intro hc
    exact forces_point i hc m

theorem valued_body (hl : ∀ h : Holder, ∀ a ∈ h.list S, a.1 < S.nl) (m : Mem Q FL FP FR FB) (b : ℕ) :
    (BodyCounts S b → (evaluate S m).body b = { m.body b with F := bodyNow S m (fun i => (m.rod i).r) b }) ∧
    (¬ BodyCounts S b → (evaluate S m).body b = m.body b) := by
  have h := mid_forces hl m
  have hv := congrFun (congrArg (fun x => x.2.2.1) (orders_forces (S := S) m)) b
  simp only [orders, Prod.mk.injEq] at hv
  rw [evaluate_eq, (passBody_body _ _ _).1]
  constructor
  · intro hc
    obtain ⟨b1, b2, b3, b4, b5⟩ := h.body b
    rw [← h.B b hc]
    dsimp only
    rw [← hv.1, ← hv.2, ← b1, ← b2, ← b3, ← b4, ← b5]
  · intro hc
    exact forces_body b hc m

theorem valued_rest (hl : ∀ h : Holder, ∀ a ∈ h.list S, a.1 < S.nl) (m : Mem Q FL FP FR FB) :
    (evaluate S m).ground = m.ground ∧ (evaluate S m).t = m.t := by
  have h := mid_forces hl m
  rw [evaluate_eq, (passBody_body _ _ _).2, passBody_t]
  exact ⟨h.ground, h.t⟩

theorem valued_line (hS : Sound S) (hl : ∀ h : Holder, ∀ a ∈ h.list S, a.1 < S.nl) (m : Mem Q FL FP FR FB) :
    (∀ k < S.nl, ((evaluate S m).line k).F = lineNow S m k) ∧
    (∀ k j, j ≠ 0 → j ≠ S.lineN k → ((evaluate S m).line k).s.r j = (m.line k).s.r j ∧ ((evaluate S m).line k).s.rd j = (m.line k).s.rd j) ∧
    (∀ i, ∀ a ∈ S.ends i, (tip S a.1 ((evaluate S m).line a.1) a.2).2.2.2 = (tip S a.1 (m.line a.1) a.2).2.2.2) := by
  have h := mid_forces hl m
  have hd := deep_passBody hS none (forces S m).ground (forces S m)
  rw [← evaluate_eq] at hd
  simp only [deep, Prod.mk.injEq] at hd
  obtain ⟨d1, d2, d3⟩ := hd
  refine ⟨fun k hk => (congrFun d1 k).trans (h.force' k hk), fun k j h0 h1 => ?_, fun i a ha => (congrFun d3 ⟨a, i, ha⟩).trans ?_⟩
  · have := congrFun (congrFun d2 k) ⟨j, h0, h1⟩
    simp only [Prod.mk.injEq] at this
    rw [this.1, this.2, h.shape]
    exact ⟨rfl, rfl⟩
  · unfold tip
    dsimp only
    cases a.2 <;> simp only [h.shape]

/-! ## What is given -/

/-- A body that is given a place. -/
noncomputable def bodyGiven (k : BKind) (dt : ℝ) (x : (V × V) × (V × V)) (B : Body Q FB) : Body Q FB :=
  match k with
  | .COUPLED => { B with ves := newVes dt x B.ves }
  | .CPLDPIN => { B with ves := newHeads dt x B.ves }
  | _ => B

/-- A rod that is given a place. -/
noncomputable def rodGiven (S : System Q FL FP FR FB Wt) (i : ℕ) (dt : ℝ) (x : (V × V) × (V × V)) (R : Rod Q FR) : Rod Q FR :=
  match S.rkind i with
  | .COUPLED => laid S i { R with ves := newVes dt x R.ves }
  | .CPLDPIN => { R with ves := newHeads dt x R.ves }
  | _ => R

theorem initBody_rest (dt : ℝ) (x : ℕ → (V × V) × (V × V)) (m : Mem Q FL FP FR FB) (b : ℕ) :
    (initBody S dt x m b).rod = m.rod ∧ (initBody S dt x m b).point = m.point ∧ (initBody S dt x m b).line = m.line ∧
      (initBody S dt x m b).ground = m.ground ∧ (initBody S dt x m b).t = m.t := by
  unfold initBody
  cases S.bkind b <;> exact ⟨rfl, rfl, rfl, rfl, rfl⟩

theorem initPoint_rest (x : ℕ → V × V) (m : Mem Q FL FP FR FB) (i : ℕ) :
    (initPoint S x m i).rod = m.rod ∧ (initPoint S x m i).body = m.body ∧ (initPoint S x m i).line = m.line ∧
      (initPoint S x m i).ground = m.ground ∧ (initPoint S x m i).t = m.t := by
  unfold initPoint
  dsimp only
  split_ifs <;> exact ⟨rfl, rfl, rfl, rfl, rfl⟩

theorem initRod_rest (dt : ℝ) (x : ℕ → (V × V) × (V × V)) (m : Mem Q FL FP FR FB) (i : ℕ) :
    (initRod S dt x m i).body = m.body ∧ (initRod S dt x m i).point = m.point ∧
      (initRod S dt x m i).ground = m.ground ∧ (initRod S dt x m i).t = m.t := by
  unfold initRod
  cases S.rkind i <;> exact ⟨rfl, rfl, rfl, rfl⟩

theorem initiate_rest (x : Asked) (m : Mem Q FL FP FR FB) : (initiate S x m).ground = m.ground ∧ (initiate S x m).t = m.t := by
  unfold initiate
  dsimp only
  constructor
  · rw [foldl_same (fun m => m.ground) (initPoint S x.point) _ fun m i _ => (initPoint_rest _ m i).2.2.2.1,
      foldl_same (fun m => m.ground) (initRod S x.dt x.rod) _ fun m i _ => (initRod_rest _ _ m i).2.2.1,
      foldl_same (fun m => m.ground) (initBody S x.dt x.body) _ fun m i _ => (initBody_rest _ _ m i).2.2.2.1]
  · rw [foldl_same (fun m => m.t) (initPoint S x.point) _ fun m i _ => (initPoint_rest _ m i).2.2.2.2,
      foldl_same (fun m => m.t) (initRod S x.dt x.rod) _ fun m i _ => (initRod_rest _ _ m i).2.2.2,
      foldl_same (fun m => m.t) (initBody S x.dt x.body) _ fun m i _ => (initBody_rest _ _ m i).2.2.2.2]

theorem initiate_body (x : Asked) (m : Mem Q FL FP FR FB) (b : ℕ) (hb : b < S.nb) :
    (initiate S x m).body b = bodyGiven (S.bkind b) x.dt (x.body b) (m.body b) := by
  unfold initiate
  dsimp only
  rw [foldl_same (fun m => m.body b) (initPoint S x.point) _ fun m i _ => congrFun (initPoint_rest _ m i).2.1 b,
    foldl_same (fun m => m.body b) (initRod S x.dt x.rod) _ fun m i _ => congrFun (initRod_rest _ _ m i).1 b]
  refine foldl_once (initBody S x.dt x.body) _ List.nodup_range (List.mem_range.mpr hb) (fun m => m.body b) (fun m => m.body b)
    (bodyGiven (S.bkind b) x.dt (x.body b)) (fun m => ?_) (fun c _ hc m => ?_) (fun c _ hc m => ?_) m
  · unfold initBody bodyGiven
    cases S.bkind b <;> simp
  · unfold initBody
    cases S.bkind c <;> simp [Function.update_of_ne hc.symm]
  · unfold initBody
    cases S.bkind c <;> simp [Function.update_of_ne hc.symm]

theorem initiate_point (x : Asked) (m : Mem Q FL FP FR FB) (i : ℕ) (hi : i < S.np) :
    (initiate S x m).point i = if S.pkind i = .COUPLED then { m.point i with ves := x.point i } else m.point i := by
  unfold initiate
  dsimp only
  rw [foldl_once (initPoint S x.point) _ List.nodup_range (List.mem_range.mpr hi) (fun m => m.point i) (fun m => m.point i)
    (fun P => if S.pkind i = .COUPLED then { P with ves := x.point i } else P) (fun m => by
      unfold initPoint; dsimp only; split_ifs <;> simp) (fun c _ hc m => by
      unfold initPoint; dsimp only; split_ifs <;> simp [Function.update_of_ne hc.symm]) (fun c _ hc m => by
      unfold initPoint; dsimp only; split_ifs <;> simp [Function.update_of_ne hc.symm])]
  rw [foldl_same (fun m => m.point i) (initRod S x.dt x.rod) _ fun m j _ => congrFun (initRod_rest _ _ m j).2.1 i,
    foldl_same (fun m => m.point i) (initBody S x.dt x.body) _ fun m j _ => congrFun (initBody_rest _ _ m j).2.1 i]

theorem initiate_rod (x : Asked) (m : Mem Q FL FP FR FB) (i : ℕ) (hi : i < S.nr) (hN : 0 < S.rodN i) :
    (initiate S x m).rod i = rodGiven S i x.dt (x.rod i) (m.rod i) := by
  unfold initiate
  dsimp only
  rw [foldl_same (fun m => m.rod i) (initPoint S x.point) _ fun m j _ => congrFun (initPoint_rest _ m j).1 i]
  rw [foldl_once (initRod S x.dt x.rod) _ List.nodup_range (List.mem_range.mpr hi) (fun m => m.rod i) (fun m => m.rod i)
    (rodGiven S i x.dt (x.rod i)) (fun m => by
      unfold initRod rodGiven
      cases S.rkind i with
      | COUPLED => dsimp only; rw [passRod_self hN, setRod_self]
      | CPLDPIN => exact setRod_self _ _ _
      | _ => rfl) (fun c _ hc m => by
      unfold initRod
      cases S.rkind c with
      | COUPLED => dsimp only; rw [passRod_other hc.symm, setRod_other hc.symm]
      | CPLDPIN => exact setRod_other hc.symm _ _
      | _ => rfl) (fun c _ hc m => by
      unfold initRod
      cases S.rkind c with
      | COUPLED => dsimp only; rw [passRod_other hc.symm, setRod_other hc.symm]
      | CPLDPIN => exact setRod_other hc.symm _ _
      | _ => rfl)]
  rw [foldl_same (fun m => m.rod i) (initBody S x.dt x.body) _ fun m j _ => congrFun (initBody_rest _ _ m j).1 i]

theorem initiate_line (hS : Sound S) (x : Asked) (m : Mem Q FL FP FR FB) : deep S (initiate S x m).line = deep S m.line := by
  unfold initiate
  dsimp only
  rw [foldl_same (fun m => deep S m.line) (initPoint S x.point) _ fun m j _ => congrArg _ (initPoint_rest _ m j).2.2.1]
  rw [foldl_same (fun m => deep S m.line) (initRod S x.dt x.rod) _ fun m i _ => by
    unfold initRod
    cases S.rkind i <;> first | rfl | exact deep_passRod hS i _]
  rw [foldl_same (fun m => deep S m.line) (initBody S x.dt x.body) _ fun m j _ => congrArg _ (initBody_rest _ _ m j).2.2.1]

end MD.Whole
