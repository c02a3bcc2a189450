import Verif.Props.Relabel
import Verif.Lemmas.RelateMoored

/-!
# C105: symmetric moorings stay symmetric
-/

set_option linter.unusedSimpArgs false
set_option linter.unusedSectionVars false
set_option linter.unusedVariables false

namespace MD.Symmetry

open Matrix MD.Mat MD.Mooring MD.Bodies MD.Moored MD.Time
open MD.Frame (Turn posVel auxOf call NotAnderson mirror byAngle)
open MD.Relabel (Labels Turned Sound Fine inner)

/-! ## Specification -/

/-- A turn about the z axis or a reflection in a vertical plane through it, and for each line and point the one
that takes its place (lines may be turned round). -/
structure Symmetric (o : Turn) (R : Labels) (S : System) : Prop where
  line : ∀ i, R.line i < S.nl ↔ i < S.nl
  point : ∀ i, R.point i < S.np ↔ i < S.np
  kind : ∀ i, S.kind (R.point i) = S.kind i
  att : ∀ i, (S.att (R.point i)).Perm ((S.att i).map R.endOf)
  depth : ∀ x : V, S.sea.waterDepth ((o.Q *ᵥ x) 0) ((o.Q *ᵥ x) 1) = S.sea.waterDepth (x 0) (x 1)
  kin : ∀ t x, S.kin t (o.Q *ᵥ x) =
    ((S.kin t x).1, o.Q *ᵥ (S.kin t x).2.1, o.Q *ᵥ (S.kin t x).2.2.1, (S.kin t x).2.2.2)

/-- The positions and velocities, and rates of them, are those of the counterparts.  `n` has the numbers of
segments of the lines. -/
structure StateSym (o : Turn) (R : Labels) (n : ℕ → ℕ) (e : State) : Prop where
  node : ∀ i j, e.1 (R.line i) j = (o.Q *ᵥ (e.1 i (inner (R.rev i) (n i) j)).1, o.Q *ᵥ (e.1 i (inner (R.rev i) (n i) j)).2)
  point : ∀ i, e.2 (R.point i) = (o.Q *ᵥ (e.2 i).1, o.Q *ᵥ (e.2 i).2)

/-- Lines and points are those of their counterparts, turned or reflected. -/
structure MemSym (o : Turn) (R : Labels) (n : ℕ → ℕ) (m : Mem) : Prop where
  N : ∀ i, (m.line i).N = n i
  pos : ∀ i, 1 ≤ n i
  thick : ∀ i, 0 ≤ (m.line i).d
  line : ∀ i, Turned (R.rev i) (Frame.line o 0 (m.line i)) (m.line (R.line i))
  point : ∀ i, m.point (R.point i) = Frame.point o 0 (m.point i)
  ves : ∀ i, m.ves (R.point i) = posVel o 0 (m.ves i)

/-- A moment of a simulation that is symmetric. -/
structure SimSym (o : Turn) (R : Labels) (n : ℕ → ℕ) (s : Sim ℝ State Mem) : Prop where
  r : StateSym o R n (s.r 0)
  rd : ∀ k, StateSym o R n (s.rd k)
  m : MemSym o R n s.m

/-- What is asked of the coupled points is symmetric. -/
def CallSym (o : Turn) (R : Labels) (x : (ℕ → V × V) × ℝ) : Prop := ∀ i, x.1 (R.point i) = posVel o 0 (x.1 i)

/-! ## Proof -/

variable {o : Turn} {R : Labels} {S : System} {n : ℕ → ℕ}

theorem frame_world (h : Symmetric o R S) : Frame.SameWorld o 0 S S :=
  ⟨rfl, rfl, rfl, rfl, rfl, rfl, rfl, rfl, rfl, rfl, rfl, fun x => by rw [add_zero]; exact h.depth x,
    fun t x => by rw [add_zero]; exact h.kin t x⟩

theorem label_world (h : Symmetric o R S) : Relabel.SameWorld R S S :=
  ⟨rfl, rfl, h.line, h.point, h.kind, h.att, rfl, rfl⟩

theorem state_lin {e : State} : StateSym o R n e ↔ e = Relabel.lin R n (Frame.lin o e) := by
  constructor
  · intro h
    apply Prod.ext
    · funext k j
      obtain ⟨i, rfl⟩ := R.line.surjective k
      rw [Relabel.lin_line, h.node]
      rfl
    · funext k
      obtain ⟨i, rfl⟩ := R.point.surjective k
      rw [Relabel.lin_point, h.point]
      rfl
  · intro h
    constructor
    · intro i j
      conv_lhs => rw [h]
      rw [Relabel.lin_line]
      rfl
    · intro i
      conv_lhs => rw [h]
      rw [Relabel.lin_point]
      rfl

theorem sym_add {a b : State} (ha : StateSym o R n a) (hb : StateSym o R n b) : StateSym o R n (a + b) := by
  rw [state_lin] at *
  rw [map_add, map_add, ← ha, ← hb]

theorem sym_smul (x : ℝ) {a : State} (ha : StateSym o R n a) : StateSym o R n (x • a) := by
  rw [state_lin] at *
  rw [map_smul, map_smul, ← ha]

theorem sym_sub {a b : State} (ha : StateSym o R n a) (hb : StateSym o R n b) : StateSym o R n (a - b) := by
  rw [state_lin] at *
  rw [map_sub, map_sub, ← ha, ← hb]

theorem seen_mem (m : Mem) : Frame.SameMem o 0 m (Frame.moment o 0 m) :=
  ⟨rfl, fun _ => rfl, fun _ => rfl, fun _ => rfl, Iff.rfl, Iff.rfl⟩

theorem back_mem {m : Mem} (h : MemSym o R n m) : Relabel.SameMem R n (Frame.moment o 0 m) m :=
  ⟨rfl, h.N, h.pos, h.thick, h.line, h.point, h.ves, Iff.rfl, Iff.rfl⟩

theorem of_mem {m m1 : Mem} (h1 : Frame.SameMem o 0 m m1) (h2 : Relabel.SameMem R n m1 m) : MemSym o R n m := by
  have hl := h1.line
  refine ⟨fun i => ?_, h2.pos, fun i => ?_, fun i => ?_, fun i => ?_, fun i => ?_⟩
  · rw [← h2.N i, hl]
    rfl
  · have := h2.thick i
    rw [hl] at this
    exact this
  · rw [← hl]
    exact h2.line i
  · rw [h2.point, h1.point]
  · rw [h2.ves, h1.ves]

theorem shift_zero : Frame.shiftOf 0 S = 0 := by
  unfold Frame.shiftOf
  apply Prod.ext
  · rfl
  · funext i
    simp

theorem sym_update (hS : Symmetric o R S) (hs : Sound S) (t tl : ℝ) {e : State} {m : Mem} (he : StateSym o R n e)
    (h : MemSym o R n m) : MemSym o R n (update S t tl e m) := by
  have h1 := (Frame.C99_machine (o := o) (d := 0) rfl (frame_world hS)).update t tl e _ _ (seen_mem m)
  rw [shift_zero, add_zero] at h1
  have h2 := Relabel.update_same (label_world hS) hs t tl (Frame.lin o e) (back_mem h)
  rw [← state_lin.1 he] at h2
  exact of_mem h1 h2

theorem fine_seen (hS : Symmetric o R S) {m : Mem} (ho : Fine R (eval S m).2) : Fine R (eval S (Frame.moment o 0 m)).2 := by
  rcases ho with ho | ho
  · exact .inl ho
  · right
    have := ((Frame.C99_machine (o := o) (d := 0) rfl (frame_world hS)).eval _ _ (seen_mem m)).edge
    exact fun hc => ho (this.1 hc)

theorem sym_rate (hS : Symmetric o R S) (hs : Sound S) {m : Mem} (h : MemSym o R n m) (ho : Fine R (eval S m).2) :
    StateSym o R n (eval S m).1 := by
  rw [state_lin]
  have h1 := (Frame.C99_machine (o := o) (d := 0) rfl (frame_world hS)).rate _ _ (seen_mem m)
  have h2 := Relabel.rate_same (label_world hS) (back_mem h) (fine_seen hS ho) hs
  conv_lhs => rw [h2]
  exact congrArg _ h1

theorem sym_eval (hS : Symmetric o R S) (hs : Sound S) {m : Mem} (h : MemSym o R n m) (ho : Fine R (eval S m).2) :
    MemSym o R n (eval S m).2 :=
  of_mem ((Frame.C99_machine (o := o) (d := 0) rfl (frame_world hS)).eval _ _ (seen_mem m))
    (Relabel.eval_same (label_world hS) (back_mem h) (fine_seen hS ho) hs)

theorem sym_aux (hN : ∀ i, n (R.line i) = n i) (relax : ℕ → ℕ → ℝ) (conv : State × State → State × State → Bool)
    (fresh : ℕ ⊕ ℕ → Bool) (hl : ∀ i, fresh (.inl (R.line i)) = fresh (.inl i))
    (hp : ∀ i, fresh (.inr (R.point i)) = fresh (.inr i)) :
    Relate.AuxAlike (1 : ℝ) (auxOf relax conv fresh) (auxOf relax conv fresh) (fun a b => b = a ∧ StateSym o R n a)
      (fun a b => b = a ∧ StateSym o R n a) := by
  have h1 := Frame.aux_same (o := o) relax conv conv fresh 0
  have h2 := Relabel.aux_same (R := R) (n := n) relax conv conv hl hp
  refine ⟨fun _ _ => rfl, ?_, ?_, ?_, ?_⟩
  · rintro ga be a _ b _ h ⟨rfl, ha⟩ ⟨rfl, hb⟩
    refine ⟨by rw [one_mul], ?_⟩
    rw [state_lin] at *
    rw [← h1.newmark, ← h2.newmark, ← ha, ← hb]
  · rintro a _ b _ ta h ⟨rfl, ha⟩ ⟨rfl, hb⟩
    refine ⟨by rw [one_mul, one_mul], ?_⟩
    rw [state_lin] at *
    rw [← h1.wilson, ← h2.wilson, ← ha, ← hb]
  · rintro a _ b _ ⟨rfl, ha⟩ ⟨rfl, hb⟩
    refine ⟨rfl, ?_⟩
    rw [state_lin] at *
    rw [← h1.sel, ← h2.sel, ← ha, ← hb]
  · rintro x a _ b _ ⟨rfl, ha⟩ ⟨rfl, hb⟩
    exact ⟨by rw [one_mul], sym_sub ha (sym_smul x hb)⟩

theorem sym_machine (hS : Symmetric o R S) (hs : Sound S) :
    Relate.Alike (1 : ℝ) (Fine R) (machine S) (machine S) (fun a b => b = a ∧ StateSym o R n a)
      (fun a b => b = a ∧ StateSym o R n a) (fun a b => b = a ∧ MemSym o R n a) where
  zero := ⟨rfl, by rw [state_lin, map_zero, map_zero]⟩
  add := by
    rintro a _ b _ ⟨rfl, ha⟩ ⟨rfl, hb⟩
    exact ⟨rfl, sym_add ha hb⟩
  smul := by
    rintro x a _ ⟨rfl, ha⟩
    exact ⟨rfl, sym_smul x ha⟩
  move := by
    rintro x a _ b _ ⟨rfl, ha⟩ ⟨rfl, hb⟩
    exact ⟨by rw [one_mul], sym_add ha (sym_smul x hb)⟩
  update := by
    rintro t tl e _ m _ ⟨rfl, he⟩ ⟨rfl, h⟩
    exact ⟨by rw [one_mul, one_mul], sym_update hS hs t tl he h⟩
  rate := by
    rintro m _ ⟨rfl, h⟩ ho
    exact ⟨rfl, sym_rate hS hs h ho⟩
  eval := by
    rintro m _ ⟨rfl, h⟩ ho
    exact ⟨rfl, sym_eval hS hs h ho⟩
  next := fun _ _ h => h
  okU := (Relabel.machine_same (label_world hS) hs n).okU
  okE := (Relabel.machine_same (label_world hS) hs n).okE
  okN := fun _ h => h

/-- C105: a symmetric mooring stays symmetric.  For every system, every symmetry of it (a turn or a reflection,
with the exchange of lines and points that goes with it) and every scheme: from a symmetric state, with
symmetric motions of the coupled points, every state of the simulation is symmetric.  If lines are turned round,
no end of a segment may have been exactly as high as the water over it (C100). -/
theorem C105_simulation (hS : Symmetric o R S) (hs : Sound S) (relax : ℕ → ℕ → ℝ)
    (conv : State × State → State × State → Bool) (fresh : ℕ ⊕ ℕ → Bool)
    (hl : ∀ i, fresh (.inl (R.line i)) = fresh (.inl i)) (hp : ∀ i, fresh (.inr (R.point i)) = fresh (.inr i))
    (sc : Scheme ℝ) (dtM0 : ℝ) (fuel : ℕ)
    (calls : List ((ℕ → V × V) × ℝ)) (hc : ∀ x ∈ calls, CallSym o R x) (s e : Sim ℝ State Mem) (h : SimSym o R n s)
    (he : calls.foldlM (call S (auxOf relax conv fresh) sc dtM0 fuel) s = some e)
    (ho : (∀ i, R.rev i = false) ∨ ¬ e.m.edge) : SimSym o R n e := by
  have hn : ∀ i, n (R.line i) = n i := by
    intro i
    have := Relabel.turned_N (h.m.line i)
    rw [h.m.N] at this
    rw [this, ← h.m.N]
    rfl
  have hm := sym_machine (n := n) hS hs
  have ha := sym_aux (o := o) hn relax conv fresh hl hp
  have hf : List.Forall₂ (fun x x' : (ℕ → V × V) × ℝ => (x'.1 = x.1 ∧ ∀ i, x.1 (R.point i) = posVel o 0 (x.1 i)) ∧
      x'.2 = 1 * x.2) calls calls := by
    rw [List.forall₂_same]
    exact fun x hx => ⟨⟨rfl, hc x hx⟩, (one_mul _).symm⟩
  obtain ⟨e', h1, h2⟩ := Relate.moored_same (C := fun x x' => x' = x ∧ ∀ i, x (R.point i) = posVel o 0 (x i)) one_pos hm ha
    (by
      rintro x _ m _ ⟨rfl, hx⟩ ⟨rfl, h⟩
      refine ⟨rfl, h.N, h.pos, h.thick, h.line, h.point, fun i => ?_⟩
      simp only [initiate, hS.kind]
      split_ifs
      · exact hx i
      · exact h.ves i)
    (fun x m h => h) sc (.inr (by
      rintro ⟨a, a1⟩ ⟨a', a1'⟩ ⟨b, b1⟩ ⟨b', b1'⟩ h1 h2 h3 h4
      obtain rfl := h1.1
      obtain rfl := h2.1
      obtain rfl := h3.1
      obtain rfl := h4.1
      rfl)) (one_mul dtM0).symm fuel calls calls hf s s e
    ⟨(one_mul _).symm, (one_mul _).symm, rfl, fun k hk => ⟨rfl, hk ▸ h.r⟩, fun k => ⟨rfl, h.rd k⟩, rfl, h.m⟩ he ho
  exact ⟨(h2.r 0 rfl).2, fun k => (h2.rd k).2, h2.m.2⟩

/-! ## What it means -/

/-- The forces given back for the coupled points are symmetric. -/
theorem C105_force (hS : Symmetric o R S) (hs : Sound S) {m : Mem} (h : MemSym o R n m) (ho : Fine R (eval S m).2) (i : ℕ) :
    reported S m (R.point i) = (reported S m i).map (o.Q *ᵥ ·) := by
  have h1 : Frame.SameMem o 0 m (Frame.moment o 0 m) :=
    ⟨rfl, fun _ => rfl, fun _ => rfl, fun _ => rfl, Iff.rfl, Iff.rfl⟩
  have h2 : Relabel.SameMem R n (Frame.moment o 0 m) m :=
    ⟨rfl, h.N, h.pos, h.thick, h.line, h.point, h.ves, Iff.rfl, Iff.rfl⟩
  have h3 : Fine R (eval S (Frame.moment o 0 m)).2 := by
    rcases ho with ho | ho
    · exact .inl ho
    · right
      have := ((Frame.C99_machine (o := o) (d := 0) rfl (frame_world hS)).eval _ _ h1).edge
      exact fun hc => ho (this.1 hc)
  rw [Relabel.C101_returned (label_world hS) h2 h3 hs, Frame.C99_returned rfl (frame_world hS) h1]

/-- The tension at the fairlead is that of the counterpart. -/
theorem C105_tension (hS : Symmetric o R S) {m : Mem} (h : MemSym o R n m) (i : ℕ) (hr : R.rev i = false) :
    fairTen (m.line (R.line i)) = fairTen (m.line i) := by
  have h1 : m.line (R.line i) = Frame.line o 0 (m.line i) := by
    have := h.line i
    rw [hr] at this
    exact this
  have hm : Frame.SameMem o 0 m (Frame.moment o 0 m) :=
    ⟨rfl, fun _ => rfl, fun _ => rfl, fun _ => rfl, Iff.rfl, Iff.rfl⟩
  have hs : Frame.Seen o 0 (lineEnv S m i) (lineEnv S (Frame.moment o 0 m) i) := ⟨rfl, Frame.env_same (frame_world hS) hm i⟩
  rw [h1, (Frame.C99_reported _ hs 0).2.1]

theorem mirror_fixed {x : V} (h : mirror.Q *ᵥ x = x) : x 1 = 0 := by
  have := congrFun h 1
  simp [mirror, mulVec, dotProduct, Fin.sum_univ_three] at this
  linarith

theorem turn_fixed {θ : ℝ} (hθ : Real.cos θ ≠ 1) {x : V} (h : (byAngle θ).Q *ᵥ x = x) : x 0 = 0 ∧ x 1 = 0 := by
  have h0 := congrFun h 0
  have h1 := congrFun h 1
  simp [byAngle, mulVec, dotProduct, Fin.sum_univ_three] at h0 h1
  have hs := Real.sin_sq_add_cos_sq θ
  have hc : 0 < 1 - Real.cos θ := by
    have := Real.cos_le_one θ
    rcases this.lt_or_eq with h | h
    · linarith
    · exact absurd h hθ
  have key : (1 - Real.cos θ) * (x 0 * x 0 + x 1 * x 1) = 0 := by
    linear_combination -(x 0) * h0 - x 1 * h1
  have := (mul_eq_zero.1 key).resolve_left hc.ne'
  constructor <;> nlinarith [mul_self_nonneg (x 0), mul_self_nonneg (x 1)]

/-- C105: a point that is its own counterpart in a reflection stays in the plane, and the force on it is in the plane. -/
theorem C105_plane (hS : Symmetric mirror R S) (hs : Sound S) {m : Mem} (h : MemSym mirror R n m) (i : ℕ) (hi : R.point i = i) :
    (m.point i).r 1 = 0 ∧ (m.point i).rd 1 = 0 ∧
    (Fine R (eval S m).2 → ∀ f, reported S m i = some f → f 1 = 0) := by
  have h1 := h.point i
  rw [hi] at h1
  refine ⟨mirror_fixed ?_, mirror_fixed ?_, fun ho f hf => mirror_fixed ?_⟩
  · have := congrArg Point.r h1
    simp only [Frame.point, add_zero] at this
    exact this.symm
  · exact (congrArg Point.rd h1).symm
  · have := C105_force hS hs h ho i
    rw [hi, hf] at this
    exact (Option.some.inj this).symm

/-- C105: a point that is its own counterpart in a turn stays on the axis, and the force on it is vertical. -/
theorem C105_axis {θ : ℝ} (hθ : Real.cos θ ≠ 1) (hS : Symmetric (byAngle θ) R S) (hs : Sound S) {m : Mem}
    (h : MemSym (byAngle θ) R n m) (i : ℕ) (hi : R.point i = i) :
    ((m.point i).r 0 = 0 ∧ (m.point i).r 1 = 0) ∧ ((m.point i).rd 0 = 0 ∧ (m.point i).rd 1 = 0) ∧
    (Fine R (eval S m).2 → ∀ f, reported S m i = some f → f 0 = 0 ∧ f 1 = 0) := by
  have h1 := h.point i
  rw [hi] at h1
  refine ⟨turn_fixed hθ ?_, turn_fixed hθ ?_, fun ho f hf => turn_fixed hθ ?_⟩
  · have := congrArg Point.r h1
    simp only [Frame.point, add_zero] at this
    exact this.symm
  · exact (congrArg Point.rd h1).symm
  · have := C105_force hS hs h ho i
    rw [hi, hf] at this
    exact (Option.some.inj this).symm

/-! ## Examples -/

/-- Two lines from anchors on both sides to a free point. -/
noncomputable def pair : System where
  nl := 2
  np := 3
  kind i := if i = 2 then .FREE else .FIXED
  att i := if i = 0 then [(0, .BOTTOM)] else if i = 1 then [(1, .BOTTOM)] else if i = 2 then [(0, .TOP), (1, .TOP)] else []
  sea := Rods.still
  kin _ _ := (0, 0, 0, 0)

/-- The lines and their anchors are exchanged. -/
def sides : Labels := ⟨Equiv.swap 0 1, Equiv.swap 0 1, fun _ => false⟩

theorem pair_symmetric : Symmetric mirror sides pair := by
  have hs : ∀ k i : ℕ, 1 < k → (Equiv.swap 0 1 i < k ↔ i < k) := by
    intro k i ha
    rw [Equiv.swap_apply_def]
    split_ifs <;> omega
  refine ⟨fun i => hs 2 i (by omega), fun i => hs 3 i (by omega), ?_, ?_, fun _ => rfl, fun _ _ => by simp [pair]⟩
  · intro i
    simp only [pair, sides, Equiv.swap_apply_def]
    split_ifs <;> first | rfl | omega
  · intro i
    match i with
    | 0 => simp [pair, sides, Labels.endOf, Relabel.flip]
    | 1 => simp [pair, sides, Labels.endOf, Relabel.flip]
    | 2 =>
      simp only [pair, sides, Labels.endOf, Relabel.flip, Equiv.swap_apply_def]
      exact List.Perm.swap _ _ _
    | i + 3 => simp [pair, sides, Equiv.swap_apply_def]

theorem pair_sound : Sound pair := by
  constructor
  · intro i j a hi hj
    simp only [pair] at hi hj
    split_ifs at hi hj <;> simp_all
  · intro i a hi
    simp only [pair] at hi
    split_ifs at hi <;> simp_all [pair]
    rcases hi with rfl | rfl <;> simp

/-- Three lines from anchors around a coupled point. -/
noncomputable def star : System where
  nl := 3
  np := 4
  kind i := if i = 3 then .COUPLED else .FIXED
  att i := if i < 3 then [(i, .BOTTOM)] else if i = 3 then [(0, .TOP), (1, .TOP), (2, .TOP)] else []
  sea := Rods.still
  kin _ _ := (0, 0, 0, 0)

/-- Each line takes the place of the next one. -/
def around : Labels :=
  ⟨(Equiv.swap 0 1).trans (Equiv.swap 0 2), (Equiv.swap 0 1).trans (Equiv.swap 0 2), fun _ => false⟩

/-- The mooring of three lines is symmetric with respect to a third of a turn (and any other). -/
theorem star_symmetric : Symmetric (byAngle (2 * Real.pi / 3)) around star := by
  have hs : ∀ k i : ℕ, 2 < k → (((Equiv.swap 0 1).trans (Equiv.swap 0 2)) i < k ↔ i < k) := by
    intro k i ha
    simp only [Equiv.trans_apply, Equiv.swap_apply_def]
    split_ifs <;> omega
  refine ⟨fun i => hs 3 i (by omega), fun i => hs 4 i (by omega), ?_, ?_, fun _ => rfl, fun _ _ => by simp [star]⟩
  · intro i
    simp only [star, around, Equiv.trans_apply, Equiv.swap_apply_def]
    split_ifs <;> first | rfl | omega
  · intro i
    match i with
    | 0 => simp [star, around, Labels.endOf, Relabel.flip, Equiv.swap_apply_def]
    | 1 => simp [star, around, Labels.endOf, Relabel.flip, Equiv.swap_apply_def]
    | 2 => simp [star, around, Labels.endOf, Relabel.flip, Equiv.swap_apply_def]
    | 3 =>
      simp [star, around, Labels.endOf, Relabel.flip, Equiv.swap_apply_def]
      exact ((List.Perm.swap _ _ _).trans ((List.Perm.swap _ _ _).cons _))
    | i + 4 =>
      have : ¬ i + 4 < 3 := by omega
      simp [star, around, Equiv.swap_apply_def, this]

/-- There is no horizontal force on the point in the middle. -/
example (hs : Sound star) {n : ℕ → ℕ} {m : Mem} (h : MemSym (byAngle (2 * Real.pi / 3)) around n m) (f : V)
    (hf : reported star m 3 = some f) : f 0 = 0 ∧ f 1 = 0 := by
  have hc : Real.cos (2 * Real.pi / 3) ≠ 1 := by
    have : Real.cos (2 * Real.pi / 3) = 2 * Real.cos (Real.pi / 3) ^ 2 - 1 := by
      rw [← Real.cos_two_mul]
      congr 1
      ring
    rw [this, Real.cos_pi_div_three]
    norm_num
  exact (C105_axis hc star_symmetric hs h 3 (by simp [around, Equiv.swap_apply_def])).2.2 (.inl fun _ => rfl) f hf

/-- A symmetric start, for any line `L` on one side and any point `p` in the middle plane. -/
noncomputable def start (L : Line) (a p : Point) : Sim ℝ State Mem :=
  { t := 0, tl := 0, n := 0, rd := fun _ => 0
    r := fun _ => (fun i j => if i = 0 then (L.r (j + 1), L.rd (j + 1)) else
        if i = 1 then (mirror.Q *ᵥ L.r (j + 1), mirror.Q *ᵥ L.rd (j + 1)) else 0, fun i => if i = 2 then (p.r, p.rd) else 0)
    m := { t := 0
           line := fun i => if i = 0 then L else if i = 1 then Frame.line mirror 0 L else
             { L with r := fun _ => 0, rd := fun _ => 0, qA := 0, qB := 0 }
           point := fun i => if i = 0 then a else if i = 1 then Frame.point mirror 0 a else p
           ves := fun _ => 0, bad := False, edge := False } }

theorem mirror_twice : mirror.Q * mirror.Q = 1 := by
  ext i j
  fin_cases i <;> fin_cases j <;> simp [mirror, Matrix.mul_apply, Fin.sum_univ_three]

theorem start_symmetric (L : Line) (a p : Point) (hN : 1 ≤ L.N) (hd : 0 ≤ L.d) (ha : a.attached = [])
    (hp : Frame.point mirror 0 p = p) : SimSym mirror sides (fun _ => L.N) (start L a p) := by
  have hr : p.r = mirror.Q *ᵥ p.r := by
    have := congrArg Point.r hp
    simp only [Frame.point, add_zero] at this
    exact this.symm
  have hrd : p.rd = mirror.Q *ᵥ p.rd := (congrArg Point.rd hp).symm
  refine ⟨⟨?_, ?_⟩, fun k => ⟨fun i j => by simp [start, Prod.zero_eq_mk], fun i => by simp [start, Prod.zero_eq_mk]⟩, ?_, fun _ => hN, ?_, ?_, ?_, ?_⟩
  · intro i j
    match i with
    | 0 => simp [start, sides, inner]
    | 1 => simp [start, sides, inner, mirror_twice]
    | i + 2 => simp [start, sides, inner, Equiv.swap_apply_def, Prod.zero_eq_mk]
  · intro i
    match i with
    | 0 => simp [start, sides, Prod.zero_eq_mk]
    | 1 => simp [start, sides, Prod.zero_eq_mk]
    | 2 => simp [start, sides, Equiv.swap_apply_def, ← hr, ← hrd]
    | i + 3 => simp [start, sides, Equiv.swap_apply_def, Prod.zero_eq_mk]
  · intro i
    simp only [start]
    split_ifs <;> rfl
  · intro i
    simp only [start]
    split_ifs <;> exact hd
  · intro i
    match i with
    | 0 => simp [start, sides, Turned]
    | 1 => simp [start, sides, Turned, Frame.line, mirror_twice]
    | i + 2 => simp [start, sides, Turned, Frame.line, Equiv.swap_apply_def]
  · intro i
    match i with
    | 0 => simp [start, sides]
    | 1 =>
      cases a
      simp only at ha
      subst ha
      simp [start, sides, Frame.point, mirror_twice]
    | i + 2 => simp [start, sides, Equiv.swap_apply_def, hp]
  · intro i
    simp [start, posVel, Prod.zero_eq_mk]

/-- The point between two lines stays in the plane between them, whatever the scheme, the lines and the time. -/
example (L : Line) (a p : Point) (hN : 1 ≤ L.N) (hd : 0 ≤ L.d) (ha : a.attached = []) (hp : Frame.point mirror 0 p = p)
    (relax : ℕ → ℕ → ℝ) (tol rel : ℝ) (sc : Scheme ℝ) (dtM0 : ℝ) (fuel : ℕ) (dts : List ℝ) (e : Sim ℝ State Mem)
    (he : (dts.map fun h => ((fun _ => 0, h) : (ℕ → V × V) × ℝ)).foldlM
      (call pair (auxOf relax (converged pair (fun _ => L.N) tol rel) fun _ => true) sc dtM0 fuel) (start L a p) = some e) :
    (e.m.point 2).r 1 = 0 ∧ (e.m.point 2).rd 1 = 0 ∧ fairTen (e.m.line 1) = fairTen (e.m.line 0) := by
  have h := C105_simulation pair_symmetric pair_sound relax _ (fun _ => true) (fun _ => rfl) (fun _ => rfl) sc
    dtM0 fuel _ (by
      intro x hx i
      obtain ⟨h, -, rfl⟩ := List.mem_map.1 hx
      simp [posVel, Prod.zero_eq_mk]) (start L a p) e (start_symmetric L a p hN hd ha hp) he (.inl fun _ => rfl)
  obtain ⟨h1, h2, -⟩ := C105_plane pair_symmetric pair_sound h.m 2 (by simp [sides, Equiv.swap_apply_def])
  exact ⟨h1, h2, by simpa [sides] using C105_tension pair_symmetric h.m 0 rfl⟩

end MD.Symmetry
