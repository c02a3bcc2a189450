import Verif.Props.Relabel
import Verif.Lemmas.RelateMoored
import Verif.Props.CFL
import Verif.Props.Options

/-!
# C106: moorings that are not connected do not influence each other
-/

set_option linter.unusedSimpArgs false
set_option linter.unusedSectionVars false
set_option linter.unusedVariables false

namespace MD.Separate

open Matrix MD.Mat MD.Mooring MD.Bodies MD.Moored MD.Time
open MD.Frame (auxOf call)
open MD.Relate (NotAnderson)

/-! ## Specification -/

/-- `S'` is a part of `S`, in the same water, with no line from the part to the rest.  The part has the first numbers;
the numbers do not matter (C101). -/
structure Part (S S' : System) : Prop where
  nl : S'.nl ≤ S.nl
  np : S'.np ≤ S.np
  kind : ∀ i < S'.np, S'.kind i = S.kind i
  att : ∀ i < S'.np, S'.att i = S.att i
  inside : ∀ i < S'.np, ∀ a ∈ S.att i, a.1 < S'.nl
  outside : ∀ i, S'.np ≤ i → i < S.np → ∀ a ∈ S.att i, S'.nl ≤ a.1
  sea : S'.sea = S.sea
  kin : S'.kin = S.kin

/-- The lines and points of the part are the same in both. -/
structure MemPart (S' : System) (m m' : Mem) : Prop where
  t : m'.t = m.t
  line : ∀ i < S'.nl, m'.line i = m.line i
  point : ∀ i < S'.np, m'.point i = m.point i
  ves : ∀ i < S'.np, m'.ves i = m.ves i
  bad : m'.bad → m.bad

/-- The positions and velocities of the part, or rates of them, are the same. -/
def StatePart (S' : System) (e e' : State) : Prop :=
  (∀ i < S'.nl, e'.1 i = e.1 i) ∧ ∀ i < S'.np, e'.2 i = e.2 i

/-- A moment of the two simulations. -/
structure SimPart (S' : System) (s s' : Sim ℝ State Mem) : Prop where
  t : s'.t = s.t
  tl : s'.tl = s.tl
  n : s'.n = s.n
  r : StatePart S' (s.r 0) (s'.r 0)
  rd : ∀ k, StatePart S' (s.rd k) (s'.rd k)
  m : MemPart S' s.m s'.m

/-! ## Proof -/

variable {S S' : System}

theorem pass_part (x xd : V) (l : List (ℕ × EndPt)) (f f' : ℕ → Line) (N : ℕ) (h : ∀ i < N, f' i = f i) (i : ℕ) (hi : i < N) :
    pass x xd l f' i = pass x xd l f i := by
  unfold pass
  induction l generalizing f f' with
  | nil => exact h i hi
  | cons a l ih =>
    apply ih
    intro j hj
    simp only [Function.update_apply]
    split_ifs with ha
    · rw [h a.1 (ha ▸ hj)]
    · exact h j hj

theorem pass_out (x xd : V) (l : List (ℕ × EndPt)) (f : ℕ → Line) (i : ℕ) (hi : ∀ a ∈ l, a.1 ≠ i) :
    pass x xd l f i = f i := by
  unfold pass
  induction l generalizing f with
  | nil => rfl
  | cons a l ih =>
    rw [List.foldl_cons, ih _ fun b hb => hi b (List.mem_cons_of_mem _ hb)]
    rw [Function.update_of_ne (hi a List.mem_cons_self).symm]

theorem move_in (hw : Part S S') {i : ℕ} (hi : i < S'.np) (x xd : V) {m m' : Mem} (h : MemPart S' m m') :
    MemPart S' (move S i x xd m) (move S' i x xd m') := by
  refine ⟨h.t, ?_, ?_, h.ves, h.bad⟩
  · intro j hj
    show pass _ _ (S'.att i) _ j = pass _ _ (S.att i) _ j
    rw [hw.att i hi]
    exact pass_part _ _ _ _ _ _ h.line j hj
  · intro j hj
    simp only [move, Function.update_apply]
    split_ifs
    · rw [h.point i hi]
    · exact h.point j hj

theorem move_out (hw : Part S S') {i : ℕ} (hi : S'.np ≤ i) (hn : i < S.np) (x xd : V) {m m' : Mem} (h : MemPart S' m m') :
    MemPart S' (move S i x xd m) m' := by
  refine ⟨h.t, ?_, ?_, h.ves, h.bad⟩
  · intro j hj
    show _ = pass _ _ (S.att i) _ j
    rw [pass_out _ _ _ _ _ fun a ha => ?_]
    · exact h.line j hj
    · have := hw.outside i hi hn a ha
      omega
  · intro j hj
    simp only [move, Function.update_apply]
    rw [if_neg (by omega)]
    exact h.point j hj

theorem fold_part {f f' : Mem → ℕ → Mem} (hw : Part S S')
    (h1 : ∀ m m' i, i < S'.np → MemPart S' m m' → MemPart S' (f m i) (f' m' i))
    (h2 : ∀ m m' i, S'.np ≤ i → i < S.np → MemPart S' m m' → MemPart S' (f m i) m') {m m' : Mem} (h : MemPart S' m m') :
    MemPart S' ((List.range S.np).foldl f m) ((List.range S'.np).foldl f' m') := by
  have e : List.range S.np = List.range S'.np ++ (List.range (S.np - S'.np)).map (S'.np + ·) := by
    rw [← List.range_add]
    congr 1
    have := hw.np
    omega
  rw [e, List.foldl_append]
  have a1 : ∀ (l : List ℕ), (∀ i ∈ l, i < S'.np) → ∀ m m', MemPart S' m m' → MemPart S' (l.foldl f m) (l.foldl f' m') := by
    intro l
    induction l with
    | nil => exact fun _ _ _ h => h
    | cons i l ih =>
      intro hl m m' h
      exact ih (fun j hj => hl j (List.mem_cons_of_mem _ hj)) _ _ (h1 _ _ _ (hl i List.mem_cons_self) h)
  have a2 : ∀ (l : List ℕ), (∀ i ∈ l, S'.np ≤ i ∧ i < S.np) → ∀ m m', MemPart S' m m' → MemPart S' (l.foldl f m) m' := by
    intro l
    induction l with
    | nil => exact fun _ _ _ h => h
    | cons i l ih =>
      intro hl m m' h
      exact ih (fun j hj => hl j (List.mem_cons_of_mem _ hj)) _ _
        (h2 _ _ _ (hl i List.mem_cons_self).1 (hl i List.mem_cons_self).2 h)
  refine a2 _ ?_ _ _ (a1 _ (fun i hi => List.mem_range.1 hi) _ _ h)
  intro i hi
  obtain ⟨j, hj, rfl⟩ := List.mem_map.1 hi
  have := List.mem_range.1 hj
  omega

theorem update_part (hw : Part S S') (t tl : ℝ) {e e' : State} (he : StatePart S' e e') {m m' : Mem} (h : MemPart S' m m') :
    MemPart S' (update S t tl e m) (update S' t tl e' m') := by
  have h1 : MemPart S' ((List.range S.np).foldl (fairlead S tl) m) ((List.range S'.np).foldl (fairlead S' tl) m') := by
    refine fold_part hw (fun a a' i hi ha => ?_) (fun a a' i hi hn ha => ?_) h
    · unfold fairlead
      rw [hw.kind i hi, ha.ves i hi]
      split_ifs
      · exact move_in hw hi _ _ ha
      · exact ha
    · unfold fairlead
      split_ifs
      · exact move_out hw hi hn _ _ ha
      · exact ha
  have h2 : MemPart S' ((List.range S.np).foldl (freeState S e) ((List.range S.np).foldl (fairlead S tl) m))
      ((List.range S'.np).foldl (freeState S' e') ((List.range S'.np).foldl (fairlead S' tl) m')) := by
    refine fold_part hw (fun a a' i hi ha => ?_) (fun a a' i hi hn ha => ?_) h1
    · unfold freeState
      rw [hw.kind i hi, he.2 i hi]
      split_ifs
      · exact move_in hw hi _ _ ha
      · exact ha
    · unfold freeState
      split_ifs
      · exact move_out hw hi hn _ _ ha
      · exact ha
  refine ⟨rfl, ?_, h2.point, h2.ves, h2.bad⟩
  intro i hi
  simp only [update]
  rw [if_pos hi, if_pos (lt_of_lt_of_le hi hw.nl), h2.line i hi, he.1 i hi]

section
variable (hw : Part S S') {m m' : Mem} (h : MemPart S' m m')
include hw h

theorem env_part {i : ℕ} (hi : i < S'.nl) : lineEnv S' m' i = lineEnv S m i := by
  unfold lineEnv envOf
  rw [hw.sea, hw.kin, h.t, h.line i hi]

theorem node_part {i : ℕ} (hi : i < S'.nl) (j : ℕ) : nodeRate S' m' i j = nodeRate S m i j := by
  unfold nodeRate
  rw [env_part hw h hi, h.line i hi]

theorem loaded_part {i : ℕ} (hi : i < S'.np) : loaded S' m' i = loaded S m i := by
  unfold loaded
  have e : ∀ l : List (ℕ × EndPt), (∀ a ∈ l, a.1 < S'.nl) →
      (l.mapM fun a => getEndStuff (m'.line a.1) (lineEnv S' m' a.1) a.2) =
        l.mapM fun a => getEndStuff (m.line a.1) (lineEnv S m a.1) a.2 := by
    intro l
    induction l with
    | nil => intro _; rfl
    | cons a l ih =>
      intro hl
      rw [List.mapM_cons, List.mapM_cons, ih fun b hb => hl b (List.mem_cons_of_mem _ hb),
        env_part hw h (hl a List.mem_cons_self), h.line _ (hl a List.mem_cons_self)]
  rw [hw.att i hi, e _ (hw.inside i hi), h.point i hi, h.t, hw.kin]

theorem rate_part {i : ℕ} (hi : i < S'.np) : pointRate S' m' i = pointRate S m i := by
  unfold pointRate
  rw [loaded_part hw h hi, hw.sea]

/-- C106: the forces given back for the points of the part. -/
theorem C106_force {i : ℕ} (hi : i < S'.np) : reported S' m' i = reported S m i := by
  unfold reported
  rw [loaded_part hw h hi, hw.sea]

theorem asked_node {i : ℕ} (hi : i < S'.nl) (j : ℕ) : asked S' m' (.inr (i, j)) ↔ asked S m (.inr (i, j)) := by
  have := hw.nl
  simp only [asked, h.line i hi]
  constructor <;> rintro ⟨h1, h2⟩ <;> exact ⟨by omega, h2⟩

theorem asked_point {i : ℕ} (hi : i < S'.np) : asked S' m' (.inl i) ↔ asked S m (.inl i) := by
  have := hw.np
  simp only [asked, hw.kind i hi]
  constructor <;> rintro ⟨h1, h2⟩ <;> exact ⟨by omega, h2⟩

theorem evals_part : StatePart S' (eval S m).1 (eval S' m').1 := by
  constructor
  · intro i hi
    funext j
    simp only [eval, node_part hw h hi]
    classical
    exact if_congr (asked_node hw h hi _) rfl rfl
  · intro i hi
    simp only [eval, rate_part hw h hi]
    classical
    exact if_congr (asked_point hw h hi) rfl rfl

theorem after_part : MemPart S' (eval S m).2 (eval S' m').2 := by
  refine ⟨h.t, h.line, h.point, h.ves, ?_⟩
  rintro (hb | ⟨i, j, ha, hb⟩ | ⟨i, ha, hb⟩)
  · exact .inl (h.bad hb)
  · have hi : i < S'.nl := ha.1
    exact .inr (.inl ⟨i, j, (asked_node hw h hi j).1 ha, by rw [← node_part hw h hi, hb]⟩)
  · have hi : i < S'.np := ha.1
    exact .inr (.inr ⟨i, (asked_point hw h hi).1 ha, by rw [← rate_part hw h hi, hb]⟩)

end

theorem machine_part (hw : Part S S') :
    Relate.Alike (1 : ℝ) (fun _ => True) (machine S) (machine S') (StatePart S') (StatePart S') (MemPart S') where
  zero := ⟨fun _ _ => rfl, fun _ _ => rfl⟩
  add a a' b b' ha hb := ⟨fun i hi => by simp [ha.1 i hi, hb.1 i hi], fun i hi => by simp [ha.2 i hi, hb.2 i hi]⟩
  smul x a a' ha := ⟨fun i hi => by simp [ha.1 i hi], fun i hi => by simp [ha.2 i hi]⟩
  move x a a' b b' ha hb :=
    ⟨fun i hi => by simp [ha.1 i hi, hb.1 i hi], fun i hi => by simp [ha.2 i hi, hb.2 i hi]⟩
  update t tl e e' m m' he h := by
    rw [one_mul, one_mul]
    exact update_part hw t tl he h
  rate m m' h _ := evals_part hw h
  eval m m' h _ := after_part hw h
  next m m' h := h
  okU _ _ _ _ _ := trivial
  okE _ _ := trivial
  okN _ _ := trivial

theorem aux_part (relax : ℕ → ℕ → ℝ) (conv conv' : State × State → State × State → Bool) (fresh fresh' : ℕ ⊕ ℕ → Bool)
    (hl : ∀ i < S'.nl, fresh' (.inl i) = fresh (.inl i)) (hp : ∀ i < S'.np, fresh' (.inr i) = fresh (.inr i)) :
    Relate.AuxAlike (1 : ℝ) (auxOf relax conv fresh) (auxOf relax conv' fresh') (StatePart S') (StatePart S') := by
  refine ⟨fun _ _ => rfl, ?_, ?_, ?_, ?_⟩
  · intro ga be a a' b b' h ha hb
    exact ⟨fun i hi => by simp only [auxOf, one_mul, ha.1 i hi, hb.1 i hi],
      fun i hi => by simp only [auxOf, one_mul, ha.2 i hi, hb.2 i hi]⟩
  · intro a a' b b' ta h ha hb
    exact ⟨fun i hi => by simp only [auxOf, one_mul, ha.1 i hi, hb.1 i hi],
      fun i hi => by simp only [auxOf, one_mul, ha.2 i hi, hb.2 i hi]⟩
  · intro a a' b b' ha hb
    exact ⟨fun i hi => by simp only [auxOf, hl i hi, ha.1 i hi, hb.1 i hi],
      fun i hi => by simp only [auxOf, hp i hi, ha.2 i hi, hb.2 i hi]⟩
  · intro x a a' b b' ha hb
    exact ⟨fun i hi => by simp [auxOf, ha.1 i hi, hb.1 i hi], fun i hi => by simp [auxOf, ha.2 i hi, hb.2 i hi]⟩

/-- C106: a part of a system that no line connects to the rest goes through the same states alone, call by call, with
the same internal time step, with every scheme but Anderson's: whatever the rest is and however it is moved. -/
theorem C106_simulation_partial (hw : Part S S') (relax : ℕ → ℕ → ℝ) (conv conv' : State × State → State × State → Bool)
    (fresh fresh' : ℕ ⊕ ℕ → Bool) (hl : ∀ i < S'.nl, fresh' (.inl i) = fresh (.inl i))
    (hp : ∀ i < S'.np, fresh' (.inr i) = fresh (.inr i)) (sc : Scheme ℝ) (hsc : NotAnderson sc) (dtM0 : ℝ) (fuel : ℕ)
    (calls calls' : List ((ℕ → V × V) × ℝ))
    (hc : List.Forall₂ (fun x x' => (∀ i < S'.np, x'.1 i = x.1 i) ∧ x'.2 = x.2) calls calls') (s s' e : Sim ℝ State Mem)
    (h : SimPart S' s s') (he : calls.foldlM (call S (auxOf relax conv fresh) sc dtM0 fuel) s = some e) :
    ∃ e', calls'.foldlM (call S' (auxOf relax conv' fresh') sc dtM0 fuel) s' = some e' ∧ SimPart S' e e' := by
  obtain ⟨e', h1, h2⟩ := Relate.moored_same (C := fun x x' => ∀ i < S'.np, x' i = x i) one_pos (machine_part hw)
    (aux_part relax conv conv' fresh fresh' hl hp)
    (by
      intro x x' m m' hx h
      refine ⟨h.t, h.line, h.point, fun i hi => ?_, h.bad⟩
      simp only [initiate, hw.kind i hi, hx i hi, h.ves i hi])
    (fun _ _ _ => trivial) sc (.inl hsc) (one_mul dtM0).symm fuel calls calls'
    (hc.imp fun x x' hx => ⟨hx.1, by rw [one_mul]; exact hx.2⟩) s s' e
    ⟨by rw [one_mul]; exact h.t, by rw [one_mul]; exact h.tl, h.n, fun k hk => hk ▸ h.r, h.rd, h.m⟩ he trivial
  refine ⟨e', h1, ?_, ?_, h2.n, h2.r 0 rfl, h2.rd, h2.m⟩
  · rw [h2.t, one_mul]
  · rw [h2.tl, one_mul]

/-- C106: positions, tensions and forces of the part do not depend on what the rest is, how it starts and how it is
moved. -/
theorem C106_rest_partial {S₁ S₂ : System} (hw₁ : Part S₁ S') (hw₂ : Part S₂ S') (relax : ℕ → ℕ → ℝ)
    (conv₁ conv₂ : State × State → State × State → Bool) (fresh₁ fresh₂ : ℕ ⊕ ℕ → Bool)
    (hl : ∀ i < S'.nl, fresh₂ (.inl i) = fresh₁ (.inl i)) (hp : ∀ i < S'.np, fresh₂ (.inr i) = fresh₁ (.inr i))
    (sc : Scheme ℝ) (hsc : NotAnderson sc) (dtM0 : ℝ) (fuel : ℕ) (calls₁ calls₂ : List ((ℕ → V × V) × ℝ))
    (hc : List.Forall₂ (fun x x' => (∀ i < S'.np, x'.1 i = x.1 i) ∧ x'.2 = x.2) calls₁ calls₂) (s₁ s₂ e₁ e₂ : Sim ℝ State Mem)
    (h : SimPart S' s₁ s₂) (he₁ : calls₁.foldlM (call S₁ (auxOf relax conv₁ fresh₁) sc dtM0 fuel) s₁ = some e₁)
    (he₂ : calls₂.foldlM (call S₂ (auxOf relax conv₂ fresh₂) sc dtM0 fuel) s₂ = some e₂) :
    e₂.t = e₁.t ∧ (∀ i < S'.nl, e₂.m.line i = e₁.m.line i ∧
      fairTen (e₂.m.line i) = fairTen (e₁.m.line i)) ∧
    ∀ i < S'.np, (e₂.m.point i).r = (e₁.m.point i).r ∧ (e₂.m.point i).rd = (e₁.m.point i).rd ∧
      reported S₂ e₂.m i = reported S₁ e₁.m i := by
  have hself : List.Forall₂ (fun x x' : (ℕ → V × V) × ℝ => (∀ i < S'.np, x'.1 i = x.1 i) ∧ x'.2 = x.2) calls₂ calls₂ :=
    List.forall₂_same.2 fun x _ => ⟨fun _ _ => rfl, rfl⟩
  obtain ⟨a, ha, h1⟩ := C106_simulation_partial hw₁ relax conv₁ conv₂ fresh₁ fresh₂ hl hp sc hsc dtM0 fuel calls₁ calls₂ hc
    s₁ s₂ e₁ h he₁
  obtain ⟨b, hb, h2⟩ := C106_simulation_partial hw₂ relax conv₂ conv₂ fresh₂ fresh₂ (fun _ _ => rfl) (fun _ _ => rfl) sc hsc
    dtM0 fuel calls₂ calls₂ hself s₂ s₂ e₂ ⟨rfl, rfl, rfl, ⟨fun _ _ => rfl, fun _ _ => rfl⟩,
      fun _ => ⟨fun _ _ => rfl, fun _ _ => rfl⟩, rfl, fun _ _ => rfl, fun _ _ => rfl, fun _ _ => rfl, id⟩ he₂
  rw [ha] at hb
  cases hb
  refine ⟨by rw [← h2.t, h1.t], fun i hi => ?_, fun i hi => ?_⟩
  · have e : e₂.m.line i = e₁.m.line i := by rw [← h2.m.line i hi, h1.m.line i hi]
    exact ⟨e, by rw [e]⟩
  · have e : e₂.m.point i = e₁.m.point i := by rw [← h2.m.point i hi, h1.m.point i hi]
    rw [e]
    exact ⟨rfl, rfl, by rw [← C106_force hw₂ h2.m hi, C106_force hw₁ h1.m hi]⟩

/-! ## Examples -/

/-- Two moorings of one line each, from an anchor to a coupled point. -/
noncomputable def both (n : ℕ) : System where
  nl := n
  np := 2 * n
  kind i := if i % 2 = 0 then .FIXED else .COUPLED
  att i := [(i / 2, if i % 2 = 0 then .BOTTOM else .TOP)]
  sea := Rods.still
  kin _ _ := (0, 0, 0, 0)

/-- With any number of them, any others can be left out. -/
theorem both_part (n k : ℕ) (h : n ≤ k) : Part (both k) (both n) := by
  refine ⟨h, Nat.mul_le_mul_left 2 h, fun _ _ => rfl, fun _ _ => rfl, ?_, ?_, rfl, rfl⟩
  · intro i hi a ha
    simp only [both, List.mem_singleton] at hi ha ⊢
    subst ha
    show i / 2 < n
    omega
  · intro i hi hn a ha
    simp only [both, List.mem_singleton] at hi ha ⊢
    subst ha
    show n ≤ i / 2
    omega

/-- The first mooring does not notice how the second one is moved. -/
example (m : Mem) (r0 : State) (sc : Scheme ℝ) (hsc : NotAnderson sc) (dtM0 : ℝ) (fuel : ℕ) (x y : V × V) (dt : ℝ)
    (e₁ e₂ : Sim ℝ State Mem) (ax : ℕ → ℕ → ℝ) (conv : State × State → State × State → Bool)
    (he₁ : [((fun i => if i ≤ 1 then x else 0, dt) : (ℕ → V × V) × ℝ)].foldlM (call (both 2) (auxOf ax conv fun _ => true) sc dtM0 fuel)
      ⟨0, 0, fun _ => r0, fun _ => 0, 0, m⟩ = some e₁)
    (he₂ : [((fun i => if i ≤ 1 then x else y, dt) : (ℕ → V × V) × ℝ)].foldlM (call (both 2) (auxOf ax conv fun _ => true) sc dtM0 fuel)
      ⟨0, 0, fun _ => r0, fun _ => 0, 0, m⟩ = some e₂) : reported (both 2) e₂.m 1 = reported (both 2) e₁.m 1 := by
  have hid : SimPart (both 1) ⟨0, 0, fun _ => r0, fun _ => 0, 0, m⟩ ⟨0, 0, fun _ => r0, fun _ => 0, 0, m⟩ :=
    ⟨rfl, rfl, rfl, ⟨fun _ _ => rfl, fun _ _ => rfl⟩, fun _ => ⟨fun _ _ => rfl, fun _ _ => rfl⟩, rfl, fun _ _ => rfl,
      fun _ _ => rfl, fun _ _ => rfl, id⟩
  have hp := both_part 1 2 (by omega)
  have h1 := C106_rest_partial hp hp ax conv conv (fun _ => true) (fun _ => true) (fun _ _ => rfl) (fun _ _ => rfl) sc hsc dtM0
    fuel _ _ (List.Forall₂.cons (a := (fun i => if i ≤ 1 then x else 0, dt)) (b := (fun i => if i ≤ 1 then x else y, dt)) ⟨fun i hi => ?_, rfl⟩ .nil) _ _ e₁ e₂ hid he₁ he₂
  · exact (h1.2.2 1 (by simp [both])).2.2
  · have : i ≤ 1 := Nat.lt_succ_iff.1 hi
    simp only [if_pos this]

/-! ## Where it fails -/

/-- The internal time step is that of the whole: if a time step is chosen by stability, a stiffer line elsewhere
shortens it. -/
theorem C106_step_false (big cfl : ℝ) (part rest : List CFL.Obj) (p : ℝ) (hp : p ∈ CFL.childPeriods rest)
    (h : cfl * p < (CFL.setCfl big cfl part).1) :
    (CFL.setCfl big cfl (part ++ rest)).1 < (CFL.setCfl big cfl part).1 := by
  refine lt_of_le_of_lt ((CFL.minDt_spec big cfl big (part ++ rest) le_rfl).2.1 p ?_) h
  have e : CFL.childPeriods (part ++ rest) = CFL.childPeriods part ++ CFL.childPeriods rest := by
    clear h
    induction part with
    | nil => rfl
    | cons o part ih => simp only [List.cons_append, CFL.childPeriods, ih, List.append_assoc]
  rw [e]
  exact List.mem_append_right _ hp

/-- The depth of the water is that of the whole: a point elsewhere that is deeper than the bottom puts the bottom down
for all. -/
theorem C106_depth_false (d : ℝ) (part rest : List ℝ) (z : ℝ) (hz : z ∈ rest) (h : z < -Options.deepened d part) :
    Options.deepened d part < Options.deepened d (part ++ rest) := by
  have := (Options.C79_depth d (part ++ rest)).1 z (List.mem_append_right _ hz)
  linarith

example : Options.deepened (50 : ℝ) [-50, 0] < Options.deepened (50 : ℝ) ([-50, 0] ++ [-60]) :=
  C106_depth_false _ _ _ (-60) (by simp) (by norm_num [Options.deepened, Options.deepen])

/-- Buoys without lines. -/
noncomputable def buoys (n : ℕ) : System where
  nl := 0
  np := n
  kind _ := .FREE
  att _ := []
  sea := Rods.still
  kin _ _ := (0, 0, 0, 0)

theorem buoys_part : Part (buoys 2) (buoys 1) :=
  ⟨le_rfl, by simp [buoys], fun _ _ => rfl, fun _ _ => rfl, by simp [buoys], by simp [buoys], rfl, rfl⟩

/-- A buoy of mass 1 that floats freely, with a force on it. -/
noncomputable def buoy (f : ℝ) : Point := ⟨1, 1 / 1000, ![f, 0, 0], 0, 0, 0, 0, 0, []⟩

/-- A small force on the first and a large force on the second. -/
noncomputable def afloat : Mem where
  t := 0
  line _ := ⟨0, 0, 0, 0, 0, 0, 0, 0, 0, 0, 0, none, none, none, false, fun _ => 0, fun _ => 0, fun _ => 0, fun _ => 0, .PINNED, .PINNED, 0, 0, fun _ => 0, false⟩
  point i := if i = 0 then buoy (1 / 100) else buoy 1
  ves _ := 0
  bad := False
  edge := False

/-- What Anderson's scheme uses. -/
noncomputable def andAux (n : ℕ) : Aux ℝ State :=
  auxOf (fun _ _ => 1 / 2) (converged (buoys n) (fun _ => 0) (1 / 100) (1 / 100)) fun _ => true

/-- The force on each buoy. -/
noncomputable def push (i : ℕ) : ℝ := if i = 0 then 1 / 100 else 1

/-- The buoys, wherever they are. -/
def Buoys (m : Mem) : Prop := ∀ i, ∃ x v, m.point i = { buoy (push i) with r := x, rd := v }

theorem buoys_acc (n : ℕ) (m : Mem) (h : Buoys m) (i : ℕ) (hi : i < n) :
    ((eval (buoys n) m).1.2 i).2 = ![push i, 0, 0] := by
  obtain ⟨x, v, hx⟩ := h i
  have h1 : pointRate (buoys n) m i = some (v, ![push i, 0, 0]) := by
    simp [pointRate, loaded, buoys, hx, buoy, Point.doRHS, pointLoop, Rods.still]
  have h2 : asked (buoys n) m (.inl i) := ⟨hi, rfl⟩
  simp only [eval]
  rw [if_pos h2, h1]
  rfl

theorem buoys_update (n : ℕ) (t tl : ℝ) (e : State) (m : Mem) (h : Buoys m) : Buoys (update (buoys n) t tl e m) := by
  have h1 : ∀ (l : List ℕ) (m : Mem), Buoys m → Buoys (l.foldl (fairlead (buoys n) tl) m) := by
    intro l
    induction l with
    | nil => exact fun _ h => h
    | cons i l ih => exact fun m h => ih _ h
  have h2 : ∀ (l : List ℕ) (m : Mem), Buoys m → Buoys (l.foldl (freeState (buoys n) e) m) := by
    intro l
    induction l with
    | nil => exact fun _ h => h
    | cons i l ih =>
      intro m h
      refine ih _ fun j => ?_
      show ∃ x v, (move (buoys n) i (e.2 i).1 (e.2 i).2 m).point j = _
      simp only [move, Function.update_apply]
      split_ifs with hj
      · obtain ⟨x, v, hx⟩ := h i
        rw [hx, hj]
        exact ⟨_, _, rfl⟩
      · exact h j
  exact h2 _ _ (h1 _ _ h)

theorem buoys_step (n : ℕ) (hn : 0 < n) (c : Bool)
    (hc : ∀ x : State, (∀ i < n, (x.2 i).2 = ![push i, 0, 0]) → (andAux n).conv (0, x) (0, x) = c) :
    (((stepOf (machine (buoys n)) (andAux n) (.anderson 2 1) 1 ⟨0, 0, fun _ => 0, fun _ => 0, 0, afloat⟩).r 0).2 0).2 0 =
      if c then 1 / 200 else 1 / 100 := by
  have h0 : Buoys afloat := by
    intro i
    simp only [afloat, push]
    split_ifs <;> exact ⟨_, _, rfl⟩
  set mc := machine (buoys n) with hmc
  have hu : ∀ t tl e m, Buoys m → Buoys (mc.update t tl e m) := fun t tl e m h => buoys_update n t tl e m h
  have he : ∀ m, Buoys m → Buoys (mc.eval m).2 := fun m h => h
  have ha : ∀ m, Buoys m → ∀ i < n, ((mc.eval m).1.2 i).2 = ![push i, 0, 0] := fun m h => buoys_acc n m h
  clear_value mc
  simp only [stepOf, anderson, andLoop, addT, setR, upd, clc, fin, setRd, firstRes]
  simp [Function.update_apply]
  have b1 := hu 1 1 0 _ h0
  rw [hc _ (ha _ b1)]
  cases c
  · have := ha _ (hu 1 1 (mix (mc.eval (mc.update 1 1 0 afloat)).1 0 ((andAux n).relax 2 0)) _ (he _ b1)) 0 hn
    simp [this, push]
  · have := ha _ b1 0 hn
    simp [mix, this, push, andAux, auxOf]
    norm_num

/-- Anderson's scheme: how often it iterates depends on the mean of the residues of everything.  A buoy alone gets half
the velocity in one step that it gets when there is another one somewhere. -/
theorem C106_anderson_false : Part (buoys 2) (buoys 1) ∧
    ((stepOf (machine (buoys 1)) (andAux 1) (.anderson 2 1) 1 ⟨0, 0, fun _ => 0, fun _ => 0, 0, afloat⟩).r 0).2 0 ≠
      ((stepOf (machine (buoys 2)) (andAux 2) (.anderson 2 1) 1 ⟨0, 0, fun _ => 0, fun _ => 0, 0, afloat⟩).r 0).2 0 := by
  refine ⟨buoys_part, fun h => ?_⟩
  have h1 := buoys_step 1 one_pos true ?_
  · have h2 := buoys_step 2 two_pos false ?_
    · rw [h, h2] at h1
      norm_num at h1
    · intro x hx
      simp [andAux, auxOf, converged, residues, ndof, buoys, absSum, hx, Finset.sum_range_succ, push]
      norm_num
  · intro x hx
    simp [andAux, auxOf, converged, residues, ndof, buoys, absSum, hx, Finset.sum_range_succ, push]
    norm_num

end MD.Separate
