import Verif.Props.Connected
import Verif.Lemmas.Placed
import Verif.Lemmas.WholeLoad

/-!
# C110: what is fixed does not move
-/

set_option linter.unusedSimpArgs false
set_option linter.unusedSectionVars false
set_option linter.unusedVariables false

namespace MD.Whole

open MD.Mooring Matrix
open MD.Moored (Kind)

variable {Q FL FP FR FB Wt : Type} {S : System Q FL FP FR FB Wt}

/-! ## Who writes in a body -/

theorem foldl_keeps {α β γ : Type} (p : α → γ) (f : α → β → α) (l : List β) (h : ∀ a, ∀ x ∈ l, p (f a x) = p a) (a : α) :
    p (l.foldl f a) = p a := by
  induction l generalizing a with
  | nil => rfl
  | cons x l ih =>
    rw [List.foldl_cons, ih fun a y hy => h a y (List.mem_cons_of_mem _ hy)]
    exact h a x List.mem_cons_self

/-- The bodies and the ground. -/
def solid (m : Mem Q FL FP FR FB) : (ℕ → Body Q FB) × Body Q FB := (m.body, m.ground)

theorem solid_rodKin (i : ℕ) (x v dir w : V) (m : Mem Q FL FP FR FB) : solid (rodKin S i x v dir w m) = solid m := by
  unfold rodKin
  split_ifs <;> rfl

theorem solid_passBody (b : Option ℕ) (B : Body Q FB) (m : Mem Q FL FP FR FB) : solid (passBody S b B m) = solid m :=
  Prod.ext (passBody_body b B m).1 (passBody_body b B m).2

theorem ground_update (t tl : ℝ) (e : State Q) (m : Mem Q FL FP FR FB) : (update S t tl e m).ground = bodyFair S t m.ground :=
  (settled_rest t tl e m).1

theorem ground_evaluate (m : Mem Q FL FP FR FB) : (evaluate S m).ground = m.ground := by
  rw [evaluate_eq, (passBody_body _ _ _).2]
  exact congrArg (fun x => x.2.2.2.1) (orders_forces (S := S) m)

/-- A body of the kind FIXED. -/
def seen (b : ℕ) (m : Mem Q FL FP FR FB) : Body Q FB × Body Q FB := (m.body b, m.ground)

theorem seen_of {b : ℕ} {m m' : Mem Q FL FP FR FB} (h : solid m = solid m') : seen b m = seen b m' := by
  have h1 : m.body = m'.body := congrArg Prod.fst h
  have h2 : m.ground = m'.ground := congrArg Prod.snd h
  simp only [seen, h1, h2]

theorem seen_fairBody {b : ℕ} (hk : S.bkind b = .FIXED) (tl : ℝ) (m : Mem Q FL FP FR FB) (c : ℕ) :
    seen b (fairBody S tl m c) = seen b m := by
  unfold fairBody
  by_cases hc : b = c
  · subst hc
    rw [hk]
  · cases S.bkind c
    · rfl
    · dsimp only
      rw [seen_of (solid_passBody _ _ _)]
      simp [seen, Function.update_of_ne hc]
    · simp [seen, Function.update_of_ne hc]
    · rfl

theorem seen_stateBody {b : ℕ} (hk : S.bkind b = .FIXED) (e : ℕ → (V × Q) × (V × V)) (m : Mem Q FL FP FR FB) (c : ℕ) :
    seen b (stateBody S e m c) = seen b m := by
  unfold stateBody
  by_cases hc : b = c
  · subst hc
    rw [hk]
  · cases S.bkind c
    · dsimp only
      rw [seen_of (solid_passBody _ _ _)]
      simp [seen, Function.update_of_ne hc]
    · rfl
    · dsimp only
      rw [seen_of (solid_passBody _ _ _)]
      simp [seen, Function.update_of_ne hc]
    · rfl

theorem solid_fairRod (tl : ℝ) (m : Mem Q FL FP FR FB) (i : ℕ) : solid (fairRod S tl m i) = solid m := by
  unfold fairRod
  cases S.rkind i <;> rfl

theorem solid_stateRod (e : ℕ → (V × Q) × (V × V)) (m : Mem Q FL FP FR FB) (i : ℕ) : solid (stateRod S e m i) = solid m := by
  unfold stateRod
  cases S.rkind i <;> rfl

theorem solid_fairPoint (tl : ℝ) (m : Mem Q FL FP FR FB) (i : ℕ) : solid (fairPoint S tl m i) = solid m := by
  unfold fairPoint
  split_ifs <;> rfl

theorem solid_statePoint (e : ℕ → V × V) (m : Mem Q FL FP FR FB) (i : ℕ) : solid (statePoint S e m i) = solid m := by
  unfold statePoint
  split_ifs <;> rfl

theorem seen_update {b : ℕ} (hk : S.bkind b = .FIXED) (t tl : ℝ) (e : State Q) (m : Mem Q FL FP FR FB) :
    seen b (update S t tl e m) = (m.body b, bodyFair S t m.ground) := by
  unfold update
  dsimp only
  rw [show ∀ m : Mem Q FL FP FR FB, seen b (stateLines S e.1 m) = seen b m from fun _ => rfl]
  rw [foldl_keeps (seen b) _ _ fun m i _ => seen_of (solid_statePoint _ m i)]
  rw [foldl_keeps (seen b) _ _ fun m i _ => seen_of (solid_stateRod _ m i)]
  rw [foldl_keeps (seen b) _ _ fun m i _ => seen_stateBody hk _ m i]
  rw [foldl_keeps (seen b) _ _ fun m i _ => seen_of (solid_fairPoint _ m i)]
  rw [foldl_keeps (seen b) _ _ fun m i _ => seen_of (solid_fairRod _ m i)]
  rw [foldl_keeps (seen b) _ _ fun m i _ => seen_fairBody hk _ m i]
  rw [seen_of (solid_passBody _ _ _)]
  rfl

theorem seen_rhsBody {b c : ℕ} (hc : b ≠ c) (wt : ℕ → ℕ → Wt) (m : Mem Q FL FP FR FB) : seen b (rhsBody S wt c m) = seen b m := by
  unfold rhsBody
  dsimp only
  have h1 : ∀ m : Mem Q FL FP FR FB, seen b ((S.rods (some c)).foldl (fun m a => rhsRod S wt a.1 m)
      ((S.pts (some c)).foldl (fun m a => rhsPoint S a.1 m) m)) = seen b m := by
    intro m
    rw [foldl_keeps (seen b) (fun m (a : ℕ × V × V) => rhsRod S wt a.1 m) _ fun m a _ => rfl]
    exact foldl_keeps (seen b) (fun m (a : ℕ × V) => rhsPoint S a.1 m) _ (fun m a _ => rfl) m
  refine Eq.trans ?_ (h1 m)
  simp [seen, Function.update_of_ne hc]

theorem seen_evaluate {b : ℕ} (hk : S.bkind b = .FIXED) (m : Mem Q FL FP FR FB) : seen b (evaluate S m) = seen b m := by
  unfold evaluate
  dsimp only
  rw [seen_of (solid_passBody _ _ _)]
  rw [foldl_keeps (seen b) _ _ fun m c _ => ?_]
  rw [foldl_keeps (seen b) _ _ fun m c _ => ?_]
  rw [foldl_keeps (seen b) _ _ fun m c _ => ?_]
  rw [foldl_keeps (seen b) _ _ fun m c _ => ?_]
  rw [foldl_keeps (seen b) _ _ fun m c _ => ?_]
  rw [foldl_keeps (seen b) _ _ fun m c _ => ?_]
  · rfl
  · unfold evalPoint
    split_ifs <;> rfl
  · unfold evalRod
    cases S.rkind c <;> rfl
  · unfold evalBody
    split_ifs with h
    · refine seen_rhsBody ?_ _ m
      rintro rfl
      rw [hk] at h
      simp at h
    · rfl
  · unfold askPoint
    split_ifs <;> rfl
  · unfold askRod
    split_ifs <;> rfl
  · unfold askBody
    split_ifs with h
    · refine seen_rhsBody ?_ _ m
      rintro rfl
      rw [hk] at h
      simp at h
    · rfl

theorem seen_initiate {b : ℕ} (hk : S.bkind b = .FIXED) (x : Asked) (m : Mem Q FL FP FR FB) :
    seen b (initiate S x m) = seen b m := by
  unfold initiate
  dsimp only
  rw [foldl_keeps (seen b) _ _ fun m c _ => ?_]
  rw [foldl_keeps (seen b) _ _ fun m c _ => ?_]
  rw [foldl_keeps (seen b) _ _ fun m c _ => ?_]
  · unfold initBody
    by_cases hc : b = c
    · subst hc
      rw [hk]
    · cases S.bkind c <;> simp [seen, Function.update_of_ne hc]
  · unfold initRod
    cases S.rkind c <;> rfl
  · unfold initPoint
    dsimp only
    split_ifs <;> rfl

theorem seen_fixBody_other {b c : ℕ} (hc : b ≠ c) (x : ℕ → V × V) (m : Mem Q FL FP FR FB) :
    seen b (fixBody S x m c) = seen b m := by
  unfold fixBody
  dsimp only
  split_ifs
  · rw [seen_of (solid_passBody _ _ _)]
    simp [seen, Function.update_of_ne hc]
  · rfl

/-! ## What is fixed does not move -/

/-- A body is at rest at the place `x` (three coordinates and three angles), in the output as well. -/
def Rests (S : System Q FL FP FR FB Wt) (x : V × V) (B : Body Q FB) : Prop :=
  B.pos = (S.pose x).1 ∧ B.quat = (S.pose x).2 ∧ B.orMat = S.mat (S.pose x).2 ∧ B.vel = 0 ∧ B.w = 0 ∧ B.acc = 0

theorem rests_bodyFair (t : ℝ) (B : Body Q FB) (x : V × V) (h : B.ves = (x, 0, 0)) : Rests S x (bodyFair S t B) := by
  unfold Rests bodyFair
  simp [h]

theorem rests_start {b : ℕ} (hb : b < S.nb) (hk : S.bkind b = .FIXED) (x : ℕ → V × V) (m : Mem Q FL FP FR FB) :
    Rests S (x b) ((fixBodies S x m).body b) := by
  unfold fixBodies
  refine foldl_sets (φ := fun m : Mem Q FL FP FR FB => Rests S (x b) (m.body b)) _ _ (List.mem_range.mpr hb) (fun m => ?_)
    (fun c _ => ?_) m
  · have e : (fixBody S x m b).body b = bodyFair S 0 { m.body b with ves := (x b, 0, 0) } := by
      unfold fixBody
      dsimp only
      rw [if_pos hk]
      have := congrArg (fun s => s.1 b) (solid_passBody (S := S) (some b)
        (bodyFair S 0 { m.body b with ves := (x b, 0, 0) })
        { m with body := Function.update m.body b (bodyFair S 0 { m.body b with ves := (x b, 0, 0) }) })
      simpa [solid] using this
    show Rests S (x b) ((fixBody S x m b).body b)
    rw [e]
    exact rests_bodyFair 0 _ _ rfl
  · by_cases hc : c = b
    · exact .inl hc
    · refine .inr fun m hm => ?_
      have := congrArg Prod.fst (seen_fixBody_other (S := S) (fun h : b = c => hc h.symm) x m)
      show Rests S (x b) ((fixBody S x m c).body b)
      rw [show (fixBody S x m c).body b = m.body b from this]
      exact hm

theorem simulation_keeps [AddCommGroup Q] [Module ℝ Q] (p : Mem Q FL FP FR FB → Prop)
    (hu : ∀ t tl e m, p m → p (update S t tl e m)) (hE : ∀ m, p m → p (evaluate S m)) (hi : ∀ x m, p m → p (initiate S x m))
    (ax : Time.Aux ℝ (State Q)) (sc : Time.Scheme ℝ) (dtM0 : ℝ) (fuel : ℕ) (calls : List Asked)
    (s e : Time.Sim ℝ (State Q) (Mem Q FL FP FR FB)) (hs : p s.m)
    (he : calls.foldlM (call S ax sc dtM0 fuel) s = some e) : p e.m := by
  have hm : Relate.Remembers (fun m => ¬ p m) (machine S) :=
    ⟨fun t tl e m h hc => h (hu t tl e m hc), fun m h hc => h (hE m hc), fun m h => h⟩
  induction calls generalizing s with
  | nil =>
    cases he
    exact hs
  | cons x calls ih =>
    rw [List.foldlM_cons] at he
    cases h1 : call S ax sc dtM0 fuel s x with
    | none => rw [h1] at he; cases he
    | some e1 =>
      rw [h1] at he
      refine ih e1 ?_ he
      unfold call at h1
      split_ifs at h1 with h0
      · cases h1
        exact hs
      · split at h1
        · rename_i hr
          cases h1
          by_contra hc
          exact Relate.call_ok hm ax sc dtM0 fuel _ { s with m := initiate S x s.m } _ _ hr hc (hi x _ hs)
        · cases h1

/-- **C110.** A fixed body stays where the input file put it, with the attitude it was given there, and its velocities and
accelerations are zero, whatever pulls at it and whatever the calls ask for, in every scheme. -/
theorem C110_fixed_body [AddCommGroup Q] [Module ℝ Q] (b : ℕ) (hb : b < S.nb) (hk : S.bkind b = .FIXED) (x : ℕ → V × V) (t tl : ℝ)
    (e0 : State Q) (m : Mem Q FL FP FR FB) (ax : Time.Aux ℝ (State Q)) (sc : Time.Scheme ℝ) (dtM0 : ℝ) (fuel : ℕ)
    (calls : List Asked) (s e : Time.Sim ℝ (State Q) (Mem Q FL FP FR FB)) (hs : s.m = update S t tl e0 (fixBodies S x m))
    (he : calls.foldlM (call S ax sc dtM0 fuel) s = some e) :
    (e.m.body b).pos = (S.pose (x b)).1 ∧ (e.m.body b).quat = (S.pose (x b)).2 ∧
      (e.m.body b).orMat = S.mat (S.pose (x b)).2 ∧ (e.m.body b).vel = 0 ∧ (e.m.body b).w = 0 ∧ (e.m.body b).acc = 0 := by
  refine simulation_keeps (S := S) (fun m => Rests S (x b) (m.body b)) (fun t tl e m h => ?_) (fun m h => ?_) (fun y m h => ?_)
    ax sc dtM0 fuel calls s e ?_ he
  · rw [show (update S t tl e m).body b = m.body b from congrArg Prod.fst (seen_update hk t tl e m)]
    exact h
  · rw [show (evaluate S m).body b = m.body b from congrArg Prod.fst (seen_evaluate hk m)]
    exact h
  · rw [show (initiate S y m).body b = m.body b from congrArg Prod.fst (seen_initiate hk y m)]
    exact h
  · show Rests S (x b) (s.m.body b)
    rw [hs, show (update S t tl e0 (fixBodies S x m)).body b = (fixBodies S x m).body b from
      congrArg Prod.fst (seen_update hk t tl e0 _)]
    exact rests_start hb hk x m

/-- **C110.** A point on a fixed body stays where it is on that body and does not move, and the ends of lines at it neither. -/
theorem C110_fixed_point [AddCommGroup Q] [Module ℝ Q] (hS : Sound S)
    (hP : ∀ i < S.np, S.pkind i = .FIXED → ∃ b rel, (i, rel) ∈ S.pts b)
    (hR : ∀ i < S.nr, S.rkind i = .FIXED → ∃ b rel, (i, rel) ∈ S.rods b) (b : ℕ) (hb : b < S.nb) (hk : S.bkind b = .FIXED)
    (i : ℕ) (rel : V) (hi : (i, rel) ∈ S.pts (some b)) (x : ℕ → V × V) (t tl : ℝ)
    (e0 : State Q) (m : Mem Q FL FP FR FB) (ax : Time.Aux ℝ (State Q)) (sc : Time.Scheme ℝ) (dtM0 : ℝ) (fuel : ℕ)
    (calls : List Asked) (s e : Time.Sim ℝ (State Q) (Mem Q FL FP FR FB)) (hs : s.m = update S t tl e0 (fixBodies S x m))
    (he : calls.foldlM (call S ax sc dtM0 fuel) s = some e) :
    (e.m.point i).r = (S.pose (x b)).1 + S.mat (S.pose (x b)).2 *ᵥ rel ∧ (e.m.point i).rd = 0 ∧
      (∀ k, (k, EndPt.BOTTOM) ∈ S.ends i → (e.m.line k).s.r 0 = (S.pose (x b)).1 + S.mat (S.pose (x b)).2 *ᵥ rel ∧
        (e.m.line k).s.rd 0 = 0) ∧
      (∀ k, (k, EndPt.TOP) ∈ S.ends i → (e.m.line k).s.r (S.lineN k) = (S.pose (x b)).1 + S.mat (S.pose (x b)).2 *ᵥ rel ∧
        (e.m.line k).s.rd (S.lineN k) = 0) := by
  have hc : Connected S e.m := by
    refine C110_simulation hS ax sc dtM0 fuel calls s e ?_ he
    rw [hs]
    exact C110_start hS hP hR x t tl e0 m
  obtain ⟨h1, -, h3, h4, h5, -⟩ := C110_fixed_body b hb hk x t tl e0 m ax sc dtM0 fuel calls s e hs he
  have hp := hc.point (some b) _ hi
  have hr : (e.m.point i).r = (S.pose (x b)).1 + S.mat (S.pose (x b)).2 *ᵥ rel := by
    have := hp.1
    rw [show e.m.bodyOf (some b) = e.m.body b from rfl, h1, h3] at this
    exact this
  have hv : (e.m.point i).rd = 0 := by
    have := hp.2
    rw [show e.m.bodyOf (some b) = e.m.body b from rfl, h4, h5] at this
    simpa using this
  have hh := hc.holds i (hS.ptsNum _ _ hi)
  refine ⟨hr, hv, fun k hk => ?_, fun k hk => ?_⟩
  · obtain ⟨d, hd⟩ := hh _ hk
    simp only [tip, Prod.mk.injEq] at hd
    exact ⟨hd.1.trans hr, hd.2.1.trans hv⟩
  · obtain ⟨d, hd⟩ := hh _ hk
    simp only [tip, Prod.mk.injEq] at hd
    exact ⟨hd.1.trans hr, hd.2.1.trans hv⟩

/-- **C110.** Anchors, which are points on the ground, stay where the input file put them and do not move, and the ends of lines at
them neither: the ground is at the origin, not turned (source/Body.cpp:410), and so are the coordinates of what is on it. -/
theorem C110_anchor [AddCommGroup Q] [Module ℝ Q] (hS : Sound S) (hpose : (S.pose 0).1 = 0) (hmat : S.mat (S.pose 0).2 = 1)
    (i : ℕ) (rel : V) (hi : (i, rel) ∈ S.pts none) (t tl : ℝ) (e0 : State Q) (m : Mem Q FL FP FR FB) (hg : m.ground.ves = 0)
    (ax : Time.Aux ℝ (State Q)) (sc : Time.Scheme ℝ) (dtM0 : ℝ) (fuel : ℕ)
    (calls : List Asked) (s e : Time.Sim ℝ (State Q) (Mem Q FL FP FR FB)) (hs : s.m = update S t tl e0 m)
    (hc : Connected S s.m) (he : calls.foldlM (call S ax sc dtM0 fuel) s = some e) :
    (e.m.point i).r = rel ∧ (e.m.point i).rd = 0 ∧
      (∀ k, (k, EndPt.BOTTOM) ∈ S.ends i → (e.m.line k).s.r 0 = rel ∧ (e.m.line k).s.rd 0 = 0) ∧
      (∀ k, (k, EndPt.TOP) ∈ S.ends i → (e.m.line k).s.r (S.lineN k) = rel ∧ (e.m.line k).s.rd (S.lineN k) = 0) := by
  have hc : Connected S e.m := C110_simulation hS ax sc dtM0 fuel calls s e hc he
  have hground : Rests S 0 e.m.ground ∧ e.m.ground.ves = 0 := by
    refine simulation_keeps (S := S) (fun m => Rests S 0 m.ground ∧ m.ground.ves = 0) (fun t tl e m h => ?_) (fun m h => ?_)
      (fun y m h => ?_) ax sc dtM0 fuel calls s e ?_ he
    · rw [ground_update]
      exact ⟨rests_bodyFair t _ _ h.2, h.2⟩
    · rw [ground_evaluate]
      exact h
    · rw [initiate_ground_eq]
      exact h
    · rw [hs, ground_update]
      exact ⟨rests_bodyFair t _ _ hg, hg⟩
  obtain ⟨⟨h1, -, h3, h4, h5, -⟩, -⟩ := hground
  have hp := hc.point none _ hi
  have hr : (e.m.point i).r = rel := by
    have := hp.1
    rw [show e.m.bodyOf none = e.m.ground from rfl, h1, h3, hpose, hmat] at this
    simpa using this
  have hv : (e.m.point i).rd = 0 := by
    have := hp.2
    rw [show e.m.bodyOf none = e.m.ground from rfl, h4, h5] at this
    simpa using this
  have hh := hc.holds i (hS.ptsNum _ _ hi)
  refine ⟨hr, hv, fun k hk => ?_, fun k hk => ?_⟩
  · obtain ⟨d, hd⟩ := hh _ hk
    simp only [tip, Prod.mk.injEq] at hd
    exact ⟨hd.1.trans hr, hd.2.1.trans hv⟩
  · obtain ⟨d, hd⟩ := hh _ hk
    simp only [tip, Prod.mk.injEq] at hd
    exact ⟨hd.1.trans hr, hd.2.1.trans hv⟩

/-! ## Cases: the anchor of the system of `Props/Connected`, and the same system with its body fixed -/

example (t tl : ℝ) (e0 : State ℝ) (m : Mem ℝ Unit Unit Unit Unit) (hg : m.ground.ves = 0) (ax : Time.Aux ℝ (State ℝ))
    (sc : Time.Scheme ℝ) (dtM0 : ℝ) (fuel : ℕ) (calls : List Asked) (s e : Time.Sim ℝ (State ℝ) (Mem ℝ Unit Unit Unit Unit))
    (hs : s.m = update hung t tl e0 m) (hc : Connected hung s.m) (he : calls.foldlM (call hung ax sc dtM0 fuel) s = some e) :
    (e.m.line 0).s.r 0 = ![10, 0, -50] ∧ (e.m.line 0).s.rd 0 = 0 := by
  refine (C110_anchor hung_sound ?_ ?_ 1 ![10, 0, -50] ?_ t tl e0 m hg ax sc dtM0 fuel calls s e hs hc he).2.2.1 0 ?_
  · simp [hung]
  · ext i j
    fin_cases i <;> fin_cases j <;> simp [hung]
  · simp [hung]
  · simp [hung]

noncomputable def pile : System ℝ Unit Unit Unit Unit Unit := { hung with bkind := fun _ => .FIXED }

theorem pile_sound : Sound pile :=
  ⟨hung_sound.once, hung_sound.lineN, hung_sound.pts, hung_sound.rods, hung_sound.ptsKind, hung_sound.rodsKind, hung_sound.rodsNum,
    hung_sound.ptsNum, hung_sound.bodyNum⟩

example (t tl : ℝ) (e0 : State ℝ) (m : Mem ℝ Unit Unit Unit Unit) (ax : Time.Aux ℝ (State ℝ))
    (sc : Time.Scheme ℝ) (dtM0 : ℝ) (fuel : ℕ) (calls : List Asked) (s e : Time.Sim ℝ (State ℝ) (Mem ℝ Unit Unit Unit Unit))
    (hs : s.m = update pile t tl e0 (fixBodies pile (fun _ => (![5, 0, -3], 0)) m))
    (he : calls.foldlM (call pile ax sc dtM0 fuel) s = some e) : (e.m.body 0).pos = ![5, 0, -3] ∧ (e.m.body 0).acc = 0 := by
  have h := C110_fixed_body 0 (by simp [pile, hung]) rfl (fun _ => (![5, 0, -3], 0)) t tl e0 m ax sc dtM0 fuel calls s e hs he
  exact ⟨h.1, h.2.2.2.2.2⟩

end MD.Whole
