import Verif.Props.FrameRigid
import Verif.Model.Moored
import Verif.Lemmas.Simulate
import Verif.Props.State
import Verif.Props.Rod

/-!
# C99: the horizontal axes can be chosen freely (whole simulations)
-/

set_option linter.unusedSimpArgs false
set_option linter.unusedSectionVars false
set_option linter.unusedVariables false

namespace MD.Frame

open Matrix MD.Mat MD.Mooring MD.Rods MD.Bodies MD.Rot

section schemes

open MD.Time

variable {K E E' M M' : Type} [Field K] [AddCommGroup E] [Module K E] [AddCommGroup E'] [Module K E']

/-! ## Two simulations that do the same -/

/-- Rates are related by a linear map `g`, states by `g` and a shift `c`. -/
structure Alike (mc : Machine K E M) (mc' : Machine K E' M') (g : E →ₗ[K] E') (c : E')
    (Rm : M → M' → Prop) : Prop where
  update : ∀ t tl e m m', Rm m m' → Rm (mc.update t tl e m) (mc'.update t tl (g e + c) m')
  rate : ∀ m m', Rm m m' → (mc'.eval m').1 = g (mc.eval m).1
  eval : ∀ m m', Rm m m' → Rm (mc.eval m).2 (mc'.eval m').2
  next : ∀ m m', Rm m m' → Rm (mc.next m) (mc'.next m')

variable {mc : Machine K E M} {mc' : Machine K E' M'} {ax : Aux K E} {ax' : Aux K E'}
  {g : E →ₗ[K] E'} {c : E'} {Rm : M → M' → Prop} {s : Sim K E M} {s' : Sim K E' M'}

theorem Alike.always (hm : Alike mc mc' g c Rm) : AlikeIf (fun _ => True) mc mc' g c Rm :=
  ⟨hm.update, fun m m' h _ => hm.rate m m' h, fun m m' h _ => hm.eval m m' h, hm.next, fun _ _ _ _ _ => trivial,
    fun _ _ => trivial, fun _ _ => trivial⟩

/-- C99: one step of any scheme but Anderson's keeps the two simulations together. -/
theorem C99_step (hm : Alike mc mc' g c Rm) (ha : AuxAlike ax ax' g c) (sc : Scheme K)
    (hsc : NotAnderson sc) (dt : K) (h : Same g c Rm (· = 0) s s') :
    Same g c Rm (· = 0) (stepOf mc ax sc dt s) (stepOf mc' ax' sc dt s') :=
  (same_step hm.always ha sc (Or.inl hsc) dt h trivial).2

variable [LinearOrder K]

/-- C99: the internal steps of one call. -/
theorem C99_call (hm : Alike mc mc' g c Rm) (ha : AuxAlike ax ax' g c) (sc : Scheme K)
    (hsc : NotAnderson sc) (dtM0 : K) (fuel : ℕ) (dt : K) (h : Same g c Rm (· = 0) s s') (e : Sim K E M)
    (hs : List K)
    (hr : outerStep (ε := Empty) dtM0 (next mc) (fun x s => .ok (stepOf mc ax sc x s)) fuel dt s =
      some (.ok e, hs)) :
    ∃ e', outerStep (ε := Empty) dtM0 (next mc') (fun x s => .ok (stepOf mc' ax' sc x s)) fuel dt s' =
      some (.ok e', hs) ∧ Same g c Rm (· = 0) e e' :=
  (same_call hm.always ha sc (Or.inl hsc) dtM0 fuel dt h e hs hr trivial).2

end schemes

/-! ## Lines and points -/

section moored

open MD.Moored MD.Time

variable (o : Turn) (d : V)

/-- The same lines and points in the same sea. -/
structure SameWorld (S S' : System) : Prop where
  nl : S'.nl = S.nl
  np : S'.np = S.np
  kind : S'.kind = S.kind
  att : S'.att = S.att
  rho_w : S'.sea.rho_w = S.sea.rho_w
  g : S'.sea.g = S.sea.g
  kb : S'.sea.kb = S.sea.kb
  cb : S'.sea.cb = S.sea.cb
  frictionCoefficient : S'.sea.frictionCoefficient = S.sea.frictionCoefficient
  fricDamp : S'.sea.fricDamp = S.sea.fricDamp
  statDynFricScale : S'.sea.statDynFricScale = S.sea.statDynFricScale
  waterDepth : ∀ x : V, S'.sea.waterDepth ((o.Q *ᵥ x + d) 0) ((o.Q *ᵥ x + d) 1) = S.sea.waterDepth (x 0) (x 1)
  kin : ∀ t x, S'.kin t (o.Q *ᵥ x + d) =
    ((S.kin t x).1, o.Q *ᵥ (S.kin t x).2.1, o.Q *ᵥ (S.kin t x).2.2.1, (S.kin t x).2.2.2)

/-- Position and velocity. -/
def posVel (x : V × V) : V × V := (o.Q *ᵥ x.1 + d, o.Q *ᵥ x.2)

/-- The same moment of two simulations. -/
structure SameMem (m m' : Mem) : Prop where
  t : m'.t = m.t
  line : ∀ i, m'.line i = line o d (m.line i)
  point : ∀ i, m'.point i = point o d (m.point i)
  ves : ∀ i, m'.ves i = posVel o d (m.ves i)
  bad : m'.bad ↔ m.bad
  edge : m'.edge ↔ m.edge

/-- The linear part of the relation of two states. -/
noncomputable def lin : State →ₗ[ℝ] State where
  toFun e := (fun i j => (o.Q *ᵥ (e.1 i j).1, o.Q *ᵥ (e.1 i j).2), fun i => (o.Q *ᵥ (e.2 i).1, o.Q *ᵥ (e.2 i).2))
  map_add' a b := by
    ext <;> simp [mulVec_add]
  map_smul' a b := by
    ext <;> simp [mulVec_smul]

/-- The constant part: it matters only where there is a free object. -/
def shiftOf (S : System) : State := (fun _ _ => (d, 0), fun i => if S.kind i = .FREE then (d, 0) else 0)

theorem setEnd_line (x xd : V) (p : EndPt) (L : Line) :
    setEnd (o.Q *ᵥ x + d) (o.Q *ᵥ xd) p (line o d L) = line o d (setEnd x xd p L) := by
  cases p <;> simp only [setEnd, line, Line.mk.injEq, true_and, and_true] <;>
    refine ⟨?_, ?_⟩ <;> funext j <;> simp only [Function.update_apply] <;> split_ifs <;> rfl

theorem pass_line (x xd : V) (l : List (ℕ × EndPt)) (f f' : ℕ → Line) (h : ∀ i, f' i = line o d (f i)) (i : ℕ) :
    pass (o.Q *ᵥ x + d) (o.Q *ᵥ xd) l f' i = line o d (pass x xd l f i) := by
  unfold pass
  induction l generalizing f f' with
  | nil => exact h i
  | cons a l ih =>
    apply ih
    intro j
    simp only [Function.update_apply]
    split_ifs
    · rw [h, setEnd_line]
    · exact h j

variable {o d} {S S' : System}

theorem move_same (hw : SameWorld o d S S') (i : ℕ) (x xd : V) {m m' : Mem} (h : SameMem o d m m') :
    SameMem o d (move S i x xd m) (move S' i (o.Q *ᵥ x + d) (o.Q *ᵥ xd) m') := by
  refine ⟨h.t, ?_, ?_, h.ves, h.bad, h.edge⟩
  · intro j
    show pass _ _ (S'.att i) _ j = _
    rw [hw.att]
    exact pass_line o d x xd _ _ _ h.line j
  · intro j
    simp only [move, Function.update_apply]
    split_ifs
    · rw [h.point]
      rfl
    · exact h.point j

theorem fold_same {f f' : Mem → ℕ → Mem} (hf : ∀ m m' i, SameMem o d m m' → SameMem o d (f m i) (f' m' i))
    (l : List ℕ) {m m' : Mem} (h : SameMem o d m m') : SameMem o d (l.foldl f m) (l.foldl f' m') := by
  induction l generalizing m m' with
  | nil => exact h
  | cons a l ih => exact ih (hf _ _ _ h)

theorem update_same (hw : SameWorld o d S S') (t tl : ℝ) (e : State) {m m' : Mem} (h : SameMem o d m m') :
    SameMem o d (update S t tl e m) (update S' t tl (lin o e + shiftOf d S) m') := by
  have h1 : SameMem o d ((List.range S.np).foldl (fairlead S tl) m)
      ((List.range S'.np).foldl (fairlead S' tl) m') := by
    rw [hw.np]
    refine fold_same (fun a a' i ha => ?_) _ h
    unfold fairlead
    rw [hw.kind]
    by_cases hk : S.kind i = .COUPLED
    · rw [if_pos hk, if_pos hk, ha.ves]
      have := move_same hw i ((a.ves i).1 + tl • (a.ves i).2) (a.ves i).2 ha
      rw [mulVec_add, mulVec_smul] at this
      simp only [posVel]
      convert this using 2
      abel
    · rw [if_neg hk, if_neg hk]
      exact ha
  have h2 : SameMem o d
      ((List.range S.np).foldl (freeState S e) ((List.range S.np).foldl (fairlead S tl) m))
      ((List.range S'.np).foldl (freeState S' (lin o e + shiftOf d S))
        ((List.range S'.np).foldl (fairlead S' tl) m')) := by
    revert h1
    rw [hw.np]
    intro h1
    refine fold_same (fun a a' i ha => ?_) _ h1
    unfold freeState
    rw [hw.kind]
    by_cases hk : S.kind i = .FREE
    · rw [if_pos hk, if_pos hk]
      have := move_same hw i (e.2 i).1 (e.2 i).2 ha
      simpa [lin, shiftOf, hk] using this
    · rw [if_neg hk, if_neg hk]
      exact ha
  refine ⟨rfl, ?_, h2.point, h2.ves, h2.bad, h2.edge⟩
  intro i
  simp only [update]
  rw [hw.nl]
  by_cases hi : i < S.nl
  · rw [if_pos hi, if_pos hi, h2.line]
    simp only [lineState, line, Line.mk.injEq, true_and, and_true]
    refine ⟨?_, ?_⟩ <;> funext j <;> simp only [lin, shiftOf] <;> split_ifs with h3 <;> simp [h3]
  · rw [if_neg hi, if_neg hi, h2.line]

theorem env_same (hw : SameWorld o d S S') {m m' : Mem} (h : SameMem o d m m') (i : ℕ) :
    SameSea o d (lineEnv S m i) (lineEnv S' m' i) := by
  unfold lineEnv envOf
  rw [h.t, h.line]
  refine ⟨hw.rho_w, hw.g, hw.kb, hw.cb, hw.frictionCoefficient, hw.fricDamp, hw.statDynFricScale, hw.waterDepth, ?_,
    ?_, ?_, ?_⟩ <;> intro j <;> simp only [line, hw.kin]

theorem inv_turn (M : M3 ℝ) : (o.Q * M * o.Qᵀ)⁻¹ = o.Q * M⁻¹ * o.Qᵀ := by
  have e : o.Qᵀ = o.Q⁻¹ := (inv_eq_left_inv o.orth).symm
  rw [Matrix.mul_inv_rev, Matrix.mul_inv_rev, e, nonsing_inv_nonsing_inv _ ?_, ← e, mul_assoc]
  rw [isUnit_iff_ne_zero]
  intro h0
  have := det_sq o
  rw [h0] at this
  norm_num at this

theorem solve_turn (M : M3 ℝ) (f : V) : (o.Q * M * o.Qᵀ)⁻¹ *ᵥ (o.Q *ᵥ f) = o.Q *ᵥ (M⁻¹ *ᵥ f) := by
  rw [inv_turn, mulVec_mulVec, mulVec_mulVec, mul_assoc (o.Q * _), o.orth, mul_one]

theorem nodeRate_same (hd : d 2 = 0) (hw : SameWorld o d S S') {m m' : Mem} (h : SameMem o d m m') (i j : ℕ) :
    nodeRate S' m' i j = (nodeRate S m i j).map fun x => (o.Q *ᵥ x.1, o.Q *ᵥ x.2) := by
  unfold nodeRate
  have hs : Seen o d (lineEnv S m i) (lineEnv S' m' i) := ⟨hd, env_same hw h i⟩
  obtain ⟨h1, h2⟩ := C99_line o d (m.line i) hs j
  rw [h.line, h1, h2, Option.map_map, Option.map_map]
  congr 1
  funext f
  simp only [Function.comp_apply, solve_turn]
  rfl

theorem ends_same (hd : d 2 = 0) (hw : SameWorld o d S S') {m m' : Mem} (h : SameMem o d m m') (a : ℕ × EndPt) :
    getEndStuff (m'.line a.1) (lineEnv S' m' a.1) a.2 =
      (getEndStuff (m.line a.1) (lineEnv S m a.1) a.2).map (stuff o) := by
  have hs : Seen o d (lineEnv S m a.1) (lineEnv S' m' a.1) := ⟨hd, env_same hw h a.1⟩
  rw [h.line]
  unfold getEndStuff
  cases a.2 with
  | TOP =>
    obtain ⟨h1, h2⟩ := C99_line o d (m.line a.1) hs (m.line a.1).N
    have e : (line o d (m.line a.1)).N = (m.line a.1).N := rfl
    dsimp only
    rw [e, h1, h2]
    cases Fnet (m.line a.1) (lineEnv S m a.1) (m.line a.1).N <;> simp [stuff]
  | BOTTOM =>
    obtain ⟨h1, h2⟩ := C99_line o d (m.line a.1) hs 0
    dsimp only
    rw [h1, h2]
    cases Fnet (m.line a.1) (lineEnv S m a.1) 0 <;> simp [stuff]

theorem loaded_same (hd : d 2 = 0) (hw : SameWorld o d S S') {m m' : Mem} (h : SameMem o d m m') (i : ℕ) :
    loaded S' m' i = (loaded S m i).map (point o d) := by
  unfold loaded
  have h1 : ∀ l : List (ℕ × EndPt), (l.mapM fun a => getEndStuff (m'.line a.1) (lineEnv S' m' a.1) a.2) =
      (l.mapM fun a => getEndStuff (m.line a.1) (lineEnv S m a.1) a.2).map (List.map (stuff o)) := by
    intro l
    induction l with
    | nil => rfl
    | cons a l ih =>
      rw [List.mapM_cons, List.mapM_cons, ih, ends_same hd hw h]
      cases getEndStuff (m.line a.1) (lineEnv S m a.1) a.2 with
      | none => rfl
      | some x =>
        cases l.mapM fun a => getEndStuff (m.line a.1) (lineEnv S m a.1) a.2 with
        | none => rfl
        | some l => rfl
  rw [hw.att, h1, Option.map_map, Option.map_map]
  congr 1
  funext l
  simp only [Function.comp_apply, h.point, h.t]
  have e : (point o d (m.point i)).r = o.Q *ᵥ (m.point i).r + d := rfl
  rw [e, hw.kin]
  rfl

theorem pointRate_same (hd : d 2 = 0) (hw : SameWorld o d S S') {m m' : Mem} (h : SameMem o d m m') (i : ℕ) :
    pointRate S' m' i = (pointRate S m i).map fun x => (o.Q *ᵥ x.1, o.Q *ᵥ x.2) := by
  unfold pointRate
  rw [loaded_same hd hw h, Option.map_map, Option.map_map]
  congr 1
  funext p
  simp only [Function.comp_apply, hw.rho_w, hw.g, C99_point, solve_turn]
  rfl

/-- C99: the forces given back for the coupled points. -/
theorem C99_returned (hd : d 2 = 0) (hw : SameWorld o d S S') {m m' : Mem} (h : SameMem o d m m') (i : ℕ) :
    reported S' m' i = (reported S m i).map (o.Q *ᵥ ·) := by
  unfold reported
  rw [loaded_same hd hw h, Option.map_map, Option.map_map]
  congr 1
  funext p
  simp only [Function.comp_apply, hw.rho_w, hw.g, C99_point]

theorem asked_same (hw : SameWorld o d S S') {m m' : Mem} (h : SameMem o d m m') (x : ℕ ⊕ (ℕ × ℕ)) :
    asked S' m' x = asked S m x := by
  cases x with
  | inl i => simp only [asked, hw.np, hw.kind]
  | inr x =>
    simp only [asked, hw.nl, h.line]
    rfl

theorem getD_map (x : Option (V × V)) :
    ((x.map fun x => (o.Q *ᵥ x.1, o.Q *ᵥ x.2)).getD 0) = (o.Q *ᵥ (x.getD 0).1, o.Q *ᵥ (x.getD 0).2) := by
  cases x <;> simp [Prod.zero_eq_mk]

/-- C99: the system of lines and points as the integrators see it. -/
theorem C99_machine (hd : d 2 = 0) (hw : SameWorld o d S S') :
    Alike (machine S) (machine S') (lin o) (shiftOf d S) (SameMem o d) := by
  refine ⟨fun t tl e m m' h => update_same hw t tl e h, ?_, ?_, fun m m' h => h⟩
  · intro m m' h
    show (eval S' m').1 = lin o (eval S m).1
    unfold eval
    apply Prod.ext
    · funext i j
      dsimp only [lin, LinearMap.coe_mk, AddHom.coe_mk]
      rw [asked_same hw h, nodeRate_same hd hw h, getD_map]
      split_ifs <;> simp [Prod.zero_eq_mk]
    · funext i
      dsimp only [lin, LinearMap.coe_mk, AddHom.coe_mk]
      rw [asked_same hw h, pointRate_same hd hw h, getD_map]
      split_ifs <;> simp [Prod.zero_eq_mk]
  · intro m m' h
    refine ⟨h.t, h.line, h.point, h.ves, ?_, ?_⟩
    · show (eval S' m').2.bad ↔ (eval S m).2.bad
      simp only [eval, h.bad, asked_same hw h, nodeRate_same hd hw h, pointRate_same hd hw h, Option.map_eq_none_iff]
    · show (eval S' m').2.edge ↔ (eval S m).2.edge
      have e1 : atEdge S' m' ↔ atEdge S m := by
        have e2 : ∀ i, (m'.line i).N = (m.line i).N := fun i => by rw [h.line]; rfl
        have e3 : ∀ i j, (m'.line i).r j 2 = (m.line i).r j 2 := fun i j => by
          rw [h.line]
          exact line_r2 o d _ ⟨hd, env_same hw h i⟩ j
        have e4 : ∀ i j, (lineEnv S' m' i).zeta j = (lineEnv S m i).zeta j := fun i j => (env_same hw h i).zeta j
        unfold atEdge
        simp only [hw.nl, e2, e3, e4]
      simp only [eval, h.edge, e1]

/-- The operations of the code on the states of lines and points; the choice of the objects that are evaluated
in local time steps is per object. -/
noncomputable def auxOf (relax : ℕ → ℕ → ℝ) (conv : State × State → State × State → Bool) (fresh : ℕ ⊕ ℕ → Bool) : Aux ℝ State where
  relax := relax
  conv := conv
  newmark g b x y h := (fun i j => newmarkPL g b (x.1 i j) (y.1 i j) h, fun i => newmarkPL g b (x.2 i) (y.2 i) h)
  wilson x y tau h := (fun i j => wilsonPL (x.1 i j) (y.1 i j) tau h, fun i => wilsonPL (x.2 i) (y.2 i) tau h)
  sel x y := (fun i => if fresh (.inl i) then x.1 i else y.1 i, fun i => if fresh (.inr i) then x.2 i else y.2 i)
  ssub := (· - ·)

theorem aux_same (relax : ℕ → ℕ → ℝ) (conv conv' : State × State → State × State → Bool) (fresh : ℕ ⊕ ℕ → Bool) (c : State) :
    AuxAlike (auxOf relax conv fresh) (auxOf relax conv' fresh) (lin o) c := by
  refine ⟨fun _ _ => rfl, ?_, ?_, ?_, ?_⟩
  · intro ga be a b h
    simp only [auxOf, lin, newmarkPL, LinearMap.coe_mk, AddHom.coe_mk, mulVec_add, mulVec_smul]
  · intro a b ta h
    simp only [auxOf, lin, wilsonPL, LinearMap.coe_mk, AddHom.coe_mk, mulVec_add, mulVec_smul]
  · intro a b
    apply Prod.ext
    · funext i j
      simp only [auxOf, lin, LinearMap.coe_mk, AddHom.coe_mk]
      split_ifs <;> rfl
    · funext i
      simp only [auxOf, lin, LinearMap.coe_mk, AddHom.coe_mk]
      split_ifs <;> rfl
  · intro a b
    simp only [auxOf, map_sub]
    abel

/-- One call of `MoorDyn_Step` with the positions and velocities `x` of the coupled points. -/
noncomputable def call (S : System) (ax : Aux ℝ State) (sc : Scheme ℝ) (dtM0 : ℝ) (fuel : ℕ)
    (s : Sim ℝ State Mem) (x : (ℕ → V × V) × ℝ) : Option (Sim ℝ State Mem) :=
  match outerStep (ε := Empty) dtM0 (next (machine S)) (fun h s => .ok (stepOf (machine S) ax sc h s)) fuel x.2
    { s with m := initiate S x.1 s.m } with
  | some (.ok e, _) => some e
  | _ => none

/-- Whole simulations of lines and points, with Anderson's scheme if it ends in both after as many iterations. -/
theorem simulation (hd : d 2 = 0) (hw : SameWorld o d S S') (relax : ℕ → ℕ → ℝ)
    (conv conv' : State × State → State × State → Bool) (fresh : ℕ ⊕ ℕ → Bool) (sc : Scheme ℝ)
    (hsc : Decides (auxOf relax conv fresh) (auxOf relax conv' fresh) (lin o) sc) (dtM0 : ℝ) (fuel : ℕ)
    (calls : List ((ℕ → V × V) × ℝ)) (s s' : Sim ℝ State Mem)
    (h : Same (lin o) (shiftOf d S) (SameMem o d) (· = 0) s s') (e : Sim ℝ State Mem)
    (he : calls.foldlM (call S (auxOf relax conv fresh) sc dtM0 fuel) s = some e) :
    ∃ e', (calls.map fun x => (fun i => posVel o d (x.1 i), x.2)).foldlM
        (call S' (auxOf relax conv' fresh) sc dtM0 fuel) s' = some e' ∧
      Same (lin o) (shiftOf d S) (SameMem o d) (· = 0) e e' := by
  induction calls generalizing s s' with
  | nil =>
    simp only [List.foldlM_nil, Option.pure_def, Option.some.injEq] at he
    exact ⟨s', rfl, he ▸ h⟩
  | cons x calls ih =>
    rw [List.foldlM_cons] at he
    rw [List.map_cons, List.foldlM_cons]
    have h1 : Same (lin o) (shiftOf d S) (SameMem o d) (· = 0) { s with m := initiate S x.1 s.m }
        { s' with m := initiate S' (fun i => posVel o d (x.1 i)) s'.m } := by
      refine ⟨h.t, h.tl, h.n, h.r, h.rd, h.m.t, h.m.line, h.m.point, ?_, h.m.bad, h.m.edge⟩
      intro i
      simp only [initiate, hw.kind]
      split_ifs
      · rfl
      · exact h.m.ves i
    cases hc : call S (auxOf relax conv fresh) sc dtM0 fuel s x with
    | none =>
      rw [hc] at he
      cases he
    | some a =>
      rw [hc] at he
      unfold call at hc
      split at hc
      · rename_i b hs hb
        cases hc
        obtain ⟨-, b', hb', hsame⟩ := same_call (C99_machine hd hw).always (aux_same relax conv conv' fresh _) sc hsc dtM0
          fuel x.2 h1 _ _ hb trivial
        have hc' : call S' (auxOf relax conv' fresh) sc dtM0 fuel s' (fun i => posVel o d (x.1 i), x.2) = some b' := by
          unfold call
          rw [hb']
        rw [hc']
        exact ih _ _ hsame he
      · cases hc

/-- C99: whole simulations of lines and points.  Whatever is asked of the coupled points, the two simulations
stay together. -/
theorem C99_simulation_partial (hd : d 2 = 0) (hw : SameWorld o d S S') (relax : ℕ → ℕ → ℝ)
    (conv conv' : State × State → State × State → Bool) (fresh : ℕ ⊕ ℕ → Bool) (sc : Scheme ℝ) (hsc : NotAnderson sc) (dtM0 : ℝ)
    (fuel : ℕ) (calls : List ((ℕ → V × V) × ℝ)) (s s' : Sim ℝ State Mem)
    (h : Same (lin o) (shiftOf d S) (SameMem o d) (· = 0) s s') (e : Sim ℝ State Mem)
    (he : calls.foldlM (call S (auxOf relax conv fresh) sc dtM0 fuel) s = some e) :
    ∃ e', (calls.map fun x => (fun i => posVel o d (x.1 i), x.2)).foldlM
        (call S' (auxOf relax conv' fresh) sc dtM0 fuel) s' = some e' ∧
      Same (lin o) (shiftOf d S) (SameMem o d) (· = 0) e e' :=
  simulation hd hw relax conv conv' fresh sc (.inl hsc) dtM0 fuel calls s s' h e he

/-- C99: what is reported of the lines. -/
theorem C99_reported (L : Line) {e e' : Env} (h : Seen o d e e') (i : ℕ) :
    getNodeTen (line o d L) i = (getNodeTen L i).map (o.Q *ᵥ ·) ∧
    fairTen (line o d L) = fairTen L ∧ outputTen (line o d L) e' i = outputTen L e i := by
  have e2 : (line o d L).N = L.N := rfl
  have h1 : ∀ i, getNodeTen (line o d L) i = (getNodeTen L i).map (o.Q *ᵥ ·) := by
    intro i
    unfold getNodeTen
    rw [e2, line_T, line_T, line_T, line_T, line_Td, line_Td, line_Td, line_Td]
    split_ifs
    · rfl
    · cases Td L 0 <;> simp [mulVec_add]
    · cases Td L (L.N - 1) <;> simp [mulVec_add]
    · cases Td L i <;> cases Td L (i - 1) <;> simp [mulVec_add, mulVec_smul]
  refine ⟨h1 i, ?_, ?_⟩
  · unfold fairTen
    rw [e2, h1]
    cases getNodeTen L L.N <;> simp [norm_turn]
  · unfold outputTen
    rw [(C99_line o d L h i).1]
    cases Fnet L e i <;> simp [norm_turn]

/-- The place in the first axes. -/
noncomputable def back (o : Turn) (d x : V) : V := o.Qᵀ *ᵥ (x - d)

/-- The depth seen from the other axes. -/
noncomputable def depth (o : Turn) (d : V) (S : System) (x y : ℝ) : ℝ :=
  S.sea.waterDepth (back o d ![x, y, 0] 0) (back o d ![x, y, 0] 1)

/-- The water seen from the other axes. -/
noncomputable def water (o : Turn) (d : V) (S : System) (t : ℝ) (x : V) : ℝ × V × V × ℝ :=
  ((S.kin t (back o d x)).1, o.Q *ᵥ (S.kin t (back o d x)).2.1, o.Q *ᵥ (S.kin t (back o d x)).2.2.1,
    (S.kin t (back o d x)).2.2.2)

/-- The world seen from the other axes. -/
noncomputable def world (o : Turn) (d : V) (S : System) : System :=
  { S with sea := { S.sea with waterDepth := depth o d S }, kin := water o d S }

/-- Every system has such a counterpart: the hypothesis of `C99_simulation_partial` can be met. -/
theorem C99_world (o : Turn) (d : V) (hd : d 2 = 0) (S : System) : SameWorld o d S (world o d S) := by
  refine ⟨rfl, rfl, rfl, rfl, rfl, rfl, rfl, rfl, rfl, rfl, rfl, ?_, ?_⟩
  · intro x
    have e : (![(o.Q *ᵥ x + d) 0, (o.Q *ᵥ x + d) 1, 0] : V) - d = o.Q *ᵥ (x - x 2 • ![0, 0, 1]) := by
      rw [mulVec_sub, mulVec_smul, o.up]
      have hz := z o x
      ext i
      fin_cases i <;> simp [hd, hz]
    show depth o d S _ _ = _
    unfold depth back
    rw [e, mulVec_mulVec, o.orth, one_mulVec]
    simp
  · intro t x
    show water o d S _ _ = _
    unfold water back
    rw [add_sub_cancel_right, mulVec_mulVec, o.orth, one_mulVec]

/-- The same moment seen from the other axes. -/
noncomputable def moment (o : Turn) (d : V) (m : Mem) : Mem :=
  { m with
    line := fun i => line o d (m.line i)
    point := fun i => point o d (m.point i)
    ves := fun i => posVel o d (m.ves i) }

/-- C99: a simulation that starts from given places, seen from other axes. -/
theorem C99_start_partial (o : Turn) (d : V) (hd : d 2 = 0) (S : System) (relax : ℕ → ℕ → ℝ)
    (conv : State × State → State × State → Bool) (fresh : ℕ ⊕ ℕ → Bool) (sc : Scheme ℝ) (hsc : NotAnderson sc) (dtM0 : ℝ)
    (fuel : ℕ) (calls : List ((ℕ → V × V) × ℝ)) (m : Mem) (r0 : State) (e : Sim ℝ State Mem)
    (he : calls.foldlM (call S (auxOf relax conv fresh) sc dtM0 fuel) ⟨0, 0, fun _ => r0, fun _ => 0, 0, m⟩ =
      some e) :
    ∃ e', (calls.map fun x => (fun i => posVel o d (x.1 i), x.2)).foldlM
        (call (world o d S) (auxOf relax conv fresh) sc dtM0 fuel)
        ⟨0, 0, fun _ => lin o r0 + shiftOf d S, fun _ => 0, 0, moment o d m⟩ = some e' ∧
      (∀ i j, (e'.m.line i).r j = o.Q *ᵥ (e.m.line i).r j + d ∧ (e'.m.line i).rd j = o.Q *ᵥ (e.m.line i).rd j) ∧
      (∀ i, (e'.m.point i).r = o.Q *ᵥ (e.m.point i).r + d ∧ (e'.m.point i).rd = o.Q *ᵥ (e.m.point i).rd) ∧
      (∀ i, fairTen (e'.m.line i) = fairTen (e.m.line i)) ∧ (e'.m.bad ↔ e.m.bad) := by
  obtain ⟨e', h1, h2⟩ := C99_simulation_partial (o := o) hd (C99_world o d hd S) relax conv conv fresh sc hsc dtM0
    fuel calls ⟨0, 0, fun _ => r0, fun _ => 0, 0, m⟩
    ⟨0, 0, fun _ => lin o r0 + shiftOf d S, fun _ => 0, 0, moment o d m⟩
    ⟨rfl, rfl, rfl, fun _ _ => rfl, fun _ => (map_zero _).symm, rfl, fun _ => rfl, fun _ => rfl, fun _ => rfl, Iff.rfl,
      Iff.rfl⟩
    e he
  refine ⟨e', h1, ?_, ?_, ?_, h2.m.bad⟩
  · intro i j
    rw [h2.m.line]
    exact ⟨rfl, rfl⟩
  · intro i
    rw [h2.m.point]
    exact ⟨rfl, rfl⟩
  · intro i
    rw [h2.m.line]
    have hs : Seen o d (lineEnv S e.m i) (lineEnv (world o d S) e'.m i) :=
      ⟨hd, env_same (C99_world o d hd S) h2.m i⟩
    exact (C99_reported _ hs 0).2.1

end moored

/-! ## Turns -/

/-- A turn by any angle about the vertical. -/
noncomputable def byAngle (θ : ℝ) : Turn where
  Q := !![Real.cos θ, -Real.sin θ, 0; Real.sin θ, Real.cos θ, 0; 0, 0, 1]
  orth := by
    have h := Real.sin_sq_add_cos_sq θ
    ext i j
    fin_cases i <;> fin_cases j <;> simp [Matrix.mul_apply, Fin.sum_univ_three] <;> nlinarith
  up := by
    ext i
    fin_cases i <;> simp

theorem byAngle_det (θ : ℝ) : (byAngle θ).Q.det = 1 := by
  have h := Real.sin_sq_add_cos_sq θ
  simp [byAngle, det_fin_three]
  nlinarith

/-- The mirror image in the plane of x and z. -/
noncomputable def mirror : Turn where
  Q := !![1, 0, 0; 0, -1, 0; 0, 0, 1]
  orth := by
    ext i j
    fin_cases i <;> fin_cases j <;> simp [Matrix.mul_apply, Fin.sum_univ_three]
  up := by
    ext i
    fin_cases i <;> simp

/-- C99_line is not empty: x goes to y in a quarter turn, and the force on a node with it. -/
example (L : Line) (i : ℕ) (f : V) (hf : Fnet L still i = some f) :
    ∃ f', Fnet (line (byAngle (Real.pi / 2)) ![5, -7, 0] L) still i = some f' ∧ f' 1 = f 0 ∧ f' 0 = -f 1 ∧
      f' 2 = f 2 := by
  have hs : Seen (byAngle (Real.pi / 2)) ![5, -7, 0] still still :=
    ⟨by simp, ⟨rfl, rfl, rfl, rfl, rfl, rfl, rfl, fun _ => rfl, fun _ => rfl, fun _ => by simp [still],
      fun _ => by simp [still], fun _ => rfl⟩⟩
  refine ⟨_, by rw [(C99_line _ _ L hs i).1, hf]; rfl, ?_⟩
  simp [byAngle, mulVec, dotProduct, Fin.sum_univ_three]

/-- Rods: the spar of `Verif.Props.Rod` leans enough. -/
example (rRef w : V) :
    getNetForceAndMass (rod (byAngle 1) 0 (spar (-50))) still ((byAngle 1).Q *ᵥ rRef + 0) ((byAngle 1).Q *ᵥ w) =
      (getNetForceAndMass (spar (-50)) still rRef w).map (load (byAngle 1)) := by
  refine C99_rod_partial _ _ (byAngle_det 1) _
    ⟨by simp, ⟨rfl, rfl, rfl, rfl, rfl, rfl, rfl, fun _ => rfl, fun _ => rfl, fun _ => by simp [still],
      fun _ => by simp [still], fun _ => rfl⟩⟩ (fun _ => Or.inr ?_) rRef w
  have : (spar (-50)).q 0 * (spar (-50)).q 0 + (spar (-50)).q 1 * (spar (-50)).q 1 = (3 / 5 : ℝ) ^ 2 := by
    simp [spar]
    norm_num
  rw [this, Real.sqrt_sq (by norm_num)]
  norm_num

/-! ## Where it fails -/

/-- Rods that lean very little: they are taken to lean towards x, whatever their direction is.  Any such rod with
mass is an example. -/
theorem C99_rod_false (R : Rod) (e : Env) (hN : R.N ≠ 0) (h6 : sixNN R.N ≠ 0) (hm : mass R ≠ 0) (hd : R.d ≠ 0)
    (hl0 : 0 < Real.sqrt (R.q 0 * R.q 0 + R.q 1 * R.q 1))
    (hl1 : Real.sqrt (R.q 0 * R.q 0 + R.q 1 * R.q 1) < 1 / 10 ^ 6) (hq : 1 / 10 ^ 12 ≤ R.q ⬝ᵥ R.q)
    (hz : R.q 2 ≠ 0) (e' : Env) (he : Seen (byAngle (Real.pi / 2)) 0 e e') (rRef w : V) :
    getNetForceAndMass (rod (byAngle (Real.pi / 2)) 0 R) e' ((byAngle (Real.pi / 2)).Q *ᵥ rRef + 0)
      ((byAngle (Real.pi / 2)).Q *ᵥ w) ≠ (getNetForceAndMass R e rRef w).map (load (byAngle (Real.pi / 2))) := by
  set o := byAngle (Real.pi / 2) with ho
  have hp : o.Q.det = 1 := byAngle_det _
  set l := Real.sqrt (R.q 0 * R.q 0 + R.q 1 * R.q 1) with hl
  set phi := atan2 l (R.q 2) with hphi
  have hlt : |l| < 1 / 10 ^ 6 := by rwa [abs_of_pos hl0]
  have ha : angles R = some (phi, 0) := by
    unfold angles orientationAngles
    rw [if_neg hN, if_neg (not_lt.mpr hq)]
    dsimp only
    rw [← hl, if_pos hlt]
  have ha' : angles (rod o 0 R) = some (phi, 0) := by
    have e1 : (rod o 0 R).q = o.Q *ᵥ R.q := rfl
    have e2 : (rod o 0 R).N = R.N := rfl
    unfold angles orientationAngles
    rw [e1, e2, if_neg hN, dot, if_neg (not_lt.mpr hq), flat_sq, z]
    dsimp only
    rw [← hl, if_pos hlt]
  have hc0 := atan2_cos l (R.q 2)
  have hs0 := atan2_sin l (R.q 2)
  rw [← hphi] at hc0 hs0
  have hcs : Real.sin phi * Real.cos phi ≠ 0 := by
    intro h0
    rcases mul_eq_zero.mp h0 with h0 | h0
    · rw [h0, mul_zero] at hs0
      exact hl0.ne hs0
    · rw [h0, mul_zero] at hc0
      exact hz hc0.symm
  have hi : ∀ R' : Rod, R'.N = R.N → R'.d = R.d → mass R' = mass R → R'.UnstrLen = R.UnstrLen →
      inertiaCorrection R' = some (mass R * (R.d / 2 * (R.d / 2) / 4 - R.UnstrLen * R.UnstrLen / (sixNN R.N : ℝ)),
        mass R / 2 * (R.d / 2) * (R.d / 2)) := by
    intro R' h1 h2 h3 h4
    unfold inertiaCorrection
    rw [h1, if_neg hN, if_neg h6, h2, h3, h4]
  unfold getNetForceAndMass
  rw [ha, ha']
  simp only [Option.bind_some]
  unfold M6net
  rw [hi R rfl rfl rfl rfl, hi (rod o 0 R) rfl rfl rfl rfl]
  simp only [Option.map_some]
  intro hcontra
  have h1 := congrArg (fun x => x.2.2) (Option.some.inj hcontra)
  simp only [load] at h1
  have er : ∀ i, Rods.r (rod o 0 R) i - Rods.r (rod o 0 R) 0 = o.Q *ᵥ (Rods.r R i - Rods.r R 0) := by
    intro i
    rw [rod_r, rod_r, mulVec_sub]
    abel
  have er0 : Rods.r (rod o 0 R) 0 - (o.Q *ᵥ rRef + 0) = o.Q *ᵥ (Rods.r R 0 - rRef) := by
    rw [rod_r, mulVec_sub]
    abel
  have e2 : (rod o 0 R).N = R.N := rfl
  have ht : ∀ (r : V) (A : M6 ℝ) (I : M3 ℝ),
      translateMass6 r (A + fromBlocks 0 0 0 I) = translateMass6 r A + fromBlocks 0 0 0 I := by
    intro r A I
    rw [← fromBlocks_toBlocks A, fromBlocks_add]
    unfold translateMass6
    simp [fromBlocks_add, add_assoc]
  have hs : (∑ i ∈ Finset.range (R.N + 1), mass6 o (translateMass (Rods.r R i - Rods.r R 0) (Rods.M R e phi i))) =
      mass6 o (∑ i ∈ Finset.range (R.N + 1), translateMass (Rods.r R i - Rods.r R 0) (Rods.M R e phi i)) := by
    unfold mass6
    rw [Finset.mul_sum, Finset.sum_mul]
  simp only [er, e2, rod_M o 0 R he, translate_turn o hp] at h1
  rw [er0, hs, ht, translate6_turn o hp, ht, mass6_add] at h1
  have h2 := add_left_cancel h1
  rw [mass6_blocks] at h2
  have h3 := congrArg toBlocks₂₂ h2
  rw [toBlocks_fromBlocks₂₂, toBlocks_fromBlocks₂₂] at h3
  rw [Imat_eq phi 0 _ _ (dir (phi, 0)) rfl] at h3
  have h4 := congrFun (congrFun h3 0) 2
  simp [ho, byAngle, dir, Rods.Q, vecMulVec, Matrix.mul_apply, Fin.sum_univ_three, vecMul, dotProduct,
    Matrix.one_apply] at h4
  have hL : 0 ≤ R.UnstrLen * R.UnstrLen / (sixNN R.N : ℝ) :=
    div_nonneg (mul_self_nonneg _) (Nat.cast_nonneg _)
  have hd2 : 0 < R.d * R.d := mul_self_pos.mpr hd
  have key : mass R * (R.d / 2 * (R.d / 2) / 4 - R.UnstrLen * R.UnstrLen / (sixNN R.N : ℝ)
      - R.d * R.d / 8) * (Real.sin phi * Real.cos phi) = 0 := by
    linear_combination -h4
  have : R.d / 2 * (R.d / 2) / 4 - R.UnstrLen * R.UnstrLen / (sixNN R.N : ℝ) - R.d * R.d / 8 ≠ 0 := by
    nlinarith
  exact (mul_ne_zero (mul_ne_zero hm this) hcs) key

/-- Such a rod: the spar of `Verif.Props.Rod`, leaning by 2e-7. -/
example : ∃ R : Rod, R.N ≠ 0 ∧ sixNN R.N ≠ 0 ∧ mass R ≠ 0 ∧ R.d ≠ 0 ∧ R.q ⬝ᵥ R.q = 1 ∧
    0 < Real.sqrt (R.q 0 * R.q 0 + R.q 1 * R.q 1) ∧ Real.sqrt (R.q 0 * R.q 0 + R.q 1 * R.q 1) < 1 / 10 ^ 6 ∧
    R.q 2 ≠ 0 := by
  refine ⟨{ spar 0 with q := ![2 / 10 ^ 7 / (1 + 1 / 10 ^ 14), 0, (1 - 1 / 10 ^ 14) / (1 + 1 / 10 ^ 14)] }, ?_, ?_, ?_, ?_,
    ?_, ?_, ?_, ?_⟩
  · simp [spar]
  · simp [spar, sixNN]
  · simp [spar, mass, segV, Rods.l, Real.pi_ne_zero]
  · simp [spar]
  · simp [dotProduct, Fin.sum_univ_three]
    norm_num
  · apply Real.sqrt_pos.2
    simp
    norm_num
  · rw [Real.sqrt_lt' (by norm_num)]
    simp
    norm_num
  · simp
    norm_num

/-- One free particle in a uniform field of acceleration, for Anderson's scheme. -/
def pulled (a : V) : Time.Machine ℝ (V × V) (V × V) := ⟨fun _ _ e _ => e, fun m => ((m.2, a), m), id⟩

open Classical in
/-- source/Time.hpp:1286-1290: the mean of the absolute values of the residues of the accelerations, against the
tolerance 0.01, and against 0.01 of that of the first iteration (0/0 is not below it). -/
noncomputable def meanAbs (g0 g : (V × V) × V × V) : Bool :=
  let mean := fun g : (V × V) × V × V => (|g.2.2 0 - g.1.2 0| + |g.2.2 1 - g.1.2 1| + |g.2.2 2 - g.1.2 2|) / 3
  decide (mean g < 1 / 100 ∨ mean g0 ≠ 0 ∧ mean g / mean g0 < 1 / 100)

/-- What Anderson's scheme uses here. -/
noncomputable def andAux : Time.Aux ℝ (V × V) :=
  ⟨fun _ _ => 1 / 2, meanAbs, Time.newmarkPL, Time.wilsonPL, fun a _ => a, (· - ·)⟩

/-- Anderson's scheme: the number of iterations depends on the axes, because the residues are measured by the
absolute values of their components.  The velocity after one step is half as large in one case. -/
theorem C99_anderson_false : ∃ (o : Turn) (a : V),
    ((Time.stepOf (pulled (o.Q *ᵥ a)) andAux (.anderson 2 1) 1 ⟨0, 0, fun _ => 0, fun _ => 0, 0, 0⟩).r 0).2 ≠
      o.Q *ᵥ ((Time.stepOf (pulled a) andAux (.anderson 2 1) 1 ⟨0, 0, fun _ => 0, fun _ => 0, 0, 0⟩).r 0).2 := by
  have horth : (!![3 / 5, -4 / 5, 0; 4 / 5, 3 / 5, 0; 0, 0, 1] : M3 ℝ)ᵀ *
      !![3 / 5, -4 / 5, 0; 4 / 5, 3 / 5, 0; 0, 0, 1] = 1 := by
    ext i j
    fin_cases i <;> fin_cases j <;> simp [Matrix.mul_apply, Fin.sum_univ_three] <;> norm_num
  refine ⟨⟨!![3 / 5, -4 / 5, 0; 4 / 5, 3 / 5, 0; 0, 0, 1], horth, ?_⟩, ![28 / 1000, 0, 0], ?_⟩
  · ext i
    fin_cases i <;> simp
  · intro h
    have h0 := congrFun h 0
    simp [Time.stepOf, Time.anderson, Time.andLoop, Time.upd, Time.clc, Time.setR, Time.setRd, Time.addT, Time.fin,
      Function.update_apply, pulled, andAux, meanAbs, Time.firstRes, Time.mix, mulVec, dotProduct, Fin.sum_univ_three] at h0
    norm_num at h0

end MD.Frame
