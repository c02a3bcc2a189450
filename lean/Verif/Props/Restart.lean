import Verif.Lemmas.Absorb
import Verif.Lemmas.RelateMoored
import Verif.Model.Motion

/-!
# C109: a run continued from a saved state goes on as if it had not been interrupted
-/

set_option linter.unusedSimpArgs false
set_option linter.unusedSectionVars false
set_option linter.unusedVariables false

namespace MD.Restart

open MD.Mooring MD.Moored MD.Time MD.Bodies
open MD.Frame (auxOf call)

variable (S : System)

/-- A point that is free or coupled. -/
def Moves (i : ℕ) : Prop := i < S.np ∧ S.kind i ≠ .FIXED

/-- An end of a line that hangs on such a point. -/
def Carried (k : ℕ) (p : EndPt) : Prop := ∃ i, Moves S i ∧ (k, p) ∈ S.att i

/-- The same line, but perhaps somewhere else: only the places and velocities of the inner nodes (if `inn`) and of the ends
in `D` can differ. -/
structure Loose (inn : Prop) (D : EndPt → Prop) (L L' : Line) : Prop where
  parts : L' = { L with
                 r := L'.r
                 rd := L'.rd
                 endTypeA := L'.endTypeA
                 endTypeB := L'.endTypeB }
  node : ∀ j, ¬ (inn ∧ 1 ≤ j ∧ j < L.N) → ¬ (j = 0 ∧ D .BOTTOM) → ¬ (j = L.N ∧ D .TOP) →
    L'.r j = L.r j ∧ L'.rd j = L.rd j
  typeA : ¬ D .BOTTOM → L'.endTypeA = L.endTypeA
  typeB : ¬ D .TOP → L'.endTypeB = L.endTypeB

/-- Two systems made of the same parts: only what moves can be somewhere else. -/
structure SameBuild (m m' : Mem) : Prop where
  line : ∀ k, Loose (k < S.nl) (Carried S k) (m.line k) (m'.line k)
  point : ∀ i, m'.point i = { m.point i with r := (m'.point i).r, rd := (m'.point i).rd } ∧
    (¬ Moves S i → m'.point i = m.point i)
  ves : ∀ i, S.kind i ≠ .COUPLED → m'.ves i = m.ves i

/-- The objects are all in the same places, with the same velocities. -/
structure SameNow (m m' : Mem) : Prop where
  t : m'.t = m.t
  line : m'.line = m.line
  point : m'.point = m.point
  ves : m'.ves = m.ves

variable {S}

theorem Loose.N {inn : Prop} {D : EndPt → Prop} {L L' : Line} (h : Loose inn D L L') : L'.N = L.N := by
  rw [h.parts]

theorem Loose.weak {inn : Prop} {D D' : EndPt → Prop} {L L' : Line} (h : Loose inn D L L') (hD : ∀ p, D p → D' p) :
    Loose inn D' L L' :=
  ⟨h.parts, fun j h1 h2 h3 => h.node j h1 (fun h => h2 ⟨h.1, hD _ h.2⟩) (fun h => h3 ⟨h.1, hD _ h.2⟩),
    fun h1 => h.typeA fun h => h1 (hD _ h), fun h1 => h.typeB fun h => h1 (hD _ h)⟩

theorem Loose.setEnd {inn : Prop} {D : EndPt → Prop} {L L' : Line} (h : Loose inn D L L') (x xd : V) (p : EndPt) :
    Loose inn (fun q => D q ∧ q ≠ p) (setEnd x xd p L) (setEnd x xd p L') := by
  have hN := h.N
  cases p with
  | BOTTOM =>
    refine ⟨?_, ?_, ?_, ?_⟩
    · simp only [Moored.setEnd]
      conv_lhs => rw [h.parts]
    · intro j h1 h2 h3
      simp only [Moored.setEnd, Function.update_apply] at *
      split_ifs with h4
      · exact ⟨rfl, rfl⟩
      · exact h.node j h1 (fun h => h4 h.1) (fun h => h3 ⟨h.1, h.2, by decide⟩)
    · intro _; rfl
    · intro h1
      exact h.typeB fun h => h1 ⟨h, by decide⟩
  | TOP =>
    refine ⟨?_, ?_, ?_, ?_⟩
    · simp only [Moored.setEnd, hN]
      conv_lhs => rw [h.parts]
    · intro j h1 h2 h3
      simp only [Moored.setEnd, Function.update_apply, hN] at *
      split_ifs with h4
      · exact ⟨rfl, rfl⟩
      · exact h.node j h1 (fun h => h2 ⟨h.1, h.2, by decide⟩) (fun h => h4 h.1)
    · intro h1
      exact h.typeA fun h => h1 ⟨h, by decide⟩
    · intro _; rfl

theorem loose_pass {inn : ℕ → Prop} (x xd : V) (l : List (ℕ × EndPt)) {D : ℕ → EndPt → Prop} {f f' : ℕ → Line}
    (h : ∀ k, Loose (inn k) (D k) (f k) (f' k)) (k : ℕ) :
    Loose (inn k) (fun p => D k p ∧ (k, p) ∉ l) (pass x xd l f k) (pass x xd l f' k) := by
  unfold pass
  induction l generalizing f f' D with
  | nil => exact (h k).weak fun p hp => ⟨hp, List.not_mem_nil⟩
  | cons a l ih =>
    rw [List.foldl_cons, List.foldl_cons]
    have h1 : ∀ k, Loose (inn k) (fun p => D k p ∧ (k, p) ≠ a)
        (Function.update f a.1 (Moored.setEnd x xd a.2 (f a.1)) k)
        (Function.update f' a.1 (Moored.setEnd x xd a.2 (f' a.1)) k) := by
      intro k
      rw [Function.update_apply, Function.update_apply]
      split_ifs with hk
      · subst hk
        exact ((h a.1).setEnd x xd a.2).weak fun p hp => ⟨hp.1, fun e => hp.2 (congrArg Prod.snd e)⟩
      · exact (h k).weak fun p hp => ⟨hp, fun e => hk (congrArg Prod.fst e)⟩
    refine (ih h1).weak fun p hp => ⟨hp.1.1, ?_⟩
    rw [List.mem_cons, not_or]
    exact ⟨hp.1.2, hp.2⟩

/-- In between: the ends in `D` and the points in `P` have not been told yet. -/
structure Part (S : System) (D : ℕ → EndPt → Prop) (P : ℕ → Prop) (m m' : Mem) : Prop where
  line : ∀ k, Loose (k < S.nl) (D k) (m.line k) (m'.line k)
  point : ∀ i, m'.point i = { m.point i with r := (m'.point i).r, rd := (m'.point i).rd } ∧
    (¬ P i → m'.point i = m.point i)
  ves : m'.ves = m.ves

theorem Part.weak {D D' : ℕ → EndPt → Prop} {P P' : ℕ → Prop} {m m' : Mem} (h : Part S D P m m')
    (hD : ∀ k p, D k p → D' k p) (hP : ∀ i, P i → P' i) : Part S D' P' m m' :=
  ⟨fun k => (h.line k).weak (hD k), fun i => ⟨(h.point i).1, fun hi => (h.point i).2 fun h => hi (hP _ h)⟩, h.ves⟩

theorem Part.move {D : ℕ → EndPt → Prop} {P : ℕ → Prop} {m m' : Mem} (h : Part S D P m m') (i : ℕ) (x xd : V) :
    Part S (fun k p => D k p ∧ (k, p) ∉ S.att i) (fun j => P j ∧ j ≠ i) (move S i x xd m) (move S i x xd m') := by
  refine ⟨fun k => loose_pass x xd (S.att i) h.line k, ?_, h.ves⟩
  intro j
  simp only [Moored.move, Function.update_apply]
  split_ifs with hj
  · have := (h.point i).1
    rw [this]
    simp
  · exact ⟨(h.point j).1, fun hP => (h.point j).2 fun h => hP ⟨h, hj⟩⟩

theorem Part.fairlead {D : ℕ → EndPt → Prop} {P : ℕ → Prop} {m m' : Mem} (h : Part S D P m m') (tl : ℝ) (i : ℕ) :
    Part S (fun k p => D k p ∧ ¬ (S.kind i = .COUPLED ∧ (k, p) ∈ S.att i)) (fun j => P j ∧ ¬ (S.kind i = .COUPLED ∧ j = i))
      (fairlead S tl m i) (fairlead S tl m' i) := by
  unfold Moored.fairlead
  split_ifs with hi
  · rw [h.ves]
    exact (h.move i _ _).weak (fun k p h => ⟨h.1, fun c => h.2 c.2⟩) (fun j h => ⟨h.1, fun c => h.2 c.2⟩)
  · exact h.weak (fun k p h => ⟨h, fun c => hi c.1⟩) (fun j h => ⟨h, fun c => hi c.1⟩)

theorem Part.freeState {D : ℕ → EndPt → Prop} {P : ℕ → Prop} {m m' : Mem} (h : Part S D P m m') (e : State) (i : ℕ) :
    Part S (fun k p => D k p ∧ ¬ (S.kind i = .FREE ∧ (k, p) ∈ S.att i)) (fun j => P j ∧ ¬ (S.kind i = .FREE ∧ j = i))
      (freeState S e m i) (freeState S e m' i) := by
  unfold Moored.freeState
  split_ifs with hi
  · exact (h.move i _ _).weak (fun k p h => ⟨h.1, fun c => h.2 c.2⟩) (fun j h => ⟨h.1, fun c => h.2 c.2⟩)
  · exact h.weak (fun k p h => ⟨h, fun c => hi c.1⟩) (fun j h => ⟨h, fun c => hi c.1⟩)

theorem part_foldl (K : Kind) (f : Mem → ℕ → Mem)
    (hf : ∀ (D : ℕ → EndPt → Prop) (P : ℕ → Prop) (m m' : Mem) (i : ℕ), Part S D P m m' →
      Part S (fun k p => D k p ∧ ¬ (S.kind i = K ∧ (k, p) ∈ S.att i)) (fun j => P j ∧ ¬ (S.kind i = K ∧ j = i))
        (f m i) (f m' i)) (l : List ℕ) {D : ℕ → EndPt → Prop} {P : ℕ → Prop} {m m' : Mem} (h : Part S D P m m') :
    Part S (fun k p => D k p ∧ ∀ i ∈ l, ¬ (S.kind i = K ∧ (k, p) ∈ S.att i)) (fun j => P j ∧ ∀ i ∈ l, ¬ (S.kind i = K ∧ j = i))
      (l.foldl f m) (l.foldl f m') := by
  induction l generalizing m m' D P with
  | nil => exact h.weak (fun _ _ h => ⟨h, fun _ h => absurd h List.not_mem_nil⟩) (fun _ h => ⟨h, fun _ h => absurd h List.not_mem_nil⟩)
  | cons a l ih =>
    refine (ih (hf D P m m' a h)).weak ?_ ?_
    · intro k p h
      refine ⟨h.1.1, fun i hi => ?_⟩
      rcases List.mem_cons.1 hi with rfl | hi
      · exact h.1.2
      · exact h.2 i hi
    · intro j h
      refine ⟨h.1.1, fun i hi => ?_⟩
      rcases List.mem_cons.1 hi with rfl | hi
      · exact h.1.2
      · exact h.2 i hi

theorem loose_lineState {L L' : Line} (h : Loose True (fun _ => False) L L') (e : ℕ → V × V) :
    lineState e L' = lineState e L := by
  have hN := h.N
  have h1 : (lineState e L').r = (lineState e L).r := by
    funext j
    simp only [lineState, hN]
    split_ifs with hj
    · rfl
    · exact (h.node j (fun c => hj c.2) (fun c => c.2) (fun c => c.2)).1
  have h2 : (lineState e L').rd = (lineState e L).rd := by
    funext j
    simp only [lineState, hN]
    split_ifs with hj
    · rfl
    · exact (h.node j (fun c => hj c.2) (fun c => c.2) (fun c => c.2)).2
  have h3 := h.typeA id
  have h4 := h.typeB id
  have h5 := h.parts
  have h6 : ∀ M : Line, lineState e M = { M with
                                          r := (lineState e M).r
                                          rd := (lineState e M).rd } := fun _ => rfl
  rw [h6 L', h6 L, h1, h2]
  conv_lhs => rw [h5]
  rw [h3, h4]

theorem loose_eq {L L' : Line} (h : Loose False (fun _ => False) L L') : L' = L := by
  have h1 : L'.r = L.r := funext fun j => (h.node j (fun c => c.1) (fun c => c.2) (fun c => c.2)).1
  have h2 : L'.rd = L.rd := funext fun j => (h.node j (fun c => c.1) (fun c => c.2) (fun c => c.2)).2
  rw [h.parts, h1, h2, h.typeA id, h.typeB id]

/-- C109: what the objects are after having been told a state does not depend on what they were before. -/
theorem C109_update {m m' : Mem} (h : SameBuild S m m') (hv : m'.ves = m.ves) (t tl : ℝ) (e : State) :
    SameNow (update S t tl e m) (update S t tl e m') := by
  have h0 : Part S (Carried S) (Moves S) m m' := ⟨h.line, h.point, hv⟩
  have h1 := part_foldl .COUPLED (fairlead S tl) (fun D P m m' i h => h.fairlead tl i) (List.range S.np) h0
  have h2 := part_foldl .FREE (freeState S e) (fun D P m m' i h => h.freeState e i) (List.range S.np) h1
  have h3 := h2.weak (D' := fun _ _ => False) (P' := fun _ => False)
    (by
      rintro k p ⟨⟨⟨i, ⟨hi, hk⟩, ha⟩, hc⟩, hf⟩
      have hc := hc i (List.mem_range.2 hi)
      have hf := hf i (List.mem_range.2 hi)
      cases hK : S.kind i with
      | FIXED => exact hk hK
      | COUPLED => exact hc ⟨hK, ha⟩
      | FREE => exact hf ⟨hK, ha⟩)
    (by
      rintro i ⟨⟨⟨hi, hk⟩, hc⟩, hf⟩
      have hc := hc i (List.mem_range.2 hi)
      have hf := hf i (List.mem_range.2 hi)
      cases hK : S.kind i with
      | FIXED => exact hk hK
      | COUPLED => exact hc ⟨hK, rfl⟩
      | FREE => exact hf ⟨hK, rfl⟩)
  refine ⟨rfl, ?_, funext fun i => (h3.point i).2 id, h3.ves⟩
  funext k
  have h4 := h3.line k
  simp only [update]
  split_ifs with hk
  · rw [eq_true hk] at h4
    exact loose_lineState h4 _
  · rw [eq_false hk] at h4
    exact loose_eq h4

/-! ## What happened before -/

theorem Loose.refl (inn : Prop) (D : EndPt → Prop) (L : Line) : Loose inn D L L :=
  ⟨rfl, fun _ _ _ _ => ⟨rfl, rfl⟩, fun _ => rfl, fun _ => rfl⟩

theorem Loose.symm {inn : Prop} {D : EndPt → Prop} {L L' : Line} (h : Loose inn D L L') : Loose inn D L' L := by
  have hN := h.N
  refine ⟨?_, fun j h1 h2 h3 => ?_, fun h1 => (h.typeA h1).symm, fun h1 => (h.typeB h1).symm⟩
  · conv_rhs => rw [h.parts]
  · rw [hN] at h1 h3
    exact ⟨(h.node j h1 h2 h3).1.symm, (h.node j h1 h2 h3).2.symm⟩

theorem Loose.trans {inn : Prop} {D : EndPt → Prop} {L L' L'' : Line} (h : Loose inn D L L') (h' : Loose inn D L' L'') :
    Loose inn D L L'' := by
  have hN := h.N
  refine ⟨?_, fun j h1 h2 h3 => ?_, fun h1 => (h'.typeA h1).trans (h.typeA h1), fun h1 => (h'.typeB h1).trans (h.typeB h1)⟩
  · rw [h'.parts]
    conv_lhs => rw [h.parts]
  · have h4 := h'.node j (by rw [hN]; exact h1) h2 (by rw [hN]; exact h3)
    have h5 := h.node j h1 h2 h3
    exact ⟨h4.1.trans h5.1, h4.2.trans h5.2⟩

theorem loose_setEnd {inn : Prop} {D : EndPt → Prop} (L : Line) (x xd : V) (p : EndPt) (hp : D p) :
    Loose inn D L (Moored.setEnd x xd p L) := by
  cases p with
  | BOTTOM =>
    refine ⟨rfl, fun j h1 h2 h3 => ?_, fun h => absurd hp h, fun _ => rfl⟩
    simp only [Moored.setEnd, Function.update_apply]
    rw [if_neg fun h => h2 ⟨h, hp⟩, if_neg fun h => h2 ⟨h, hp⟩]
    exact ⟨rfl, rfl⟩
  | TOP =>
    refine ⟨rfl, fun j h1 h2 h3 => ?_, fun _ => rfl, fun h => absurd hp h⟩
    simp only [Moored.setEnd, Function.update_apply]
    rw [if_neg fun h => h3 ⟨h, hp⟩, if_neg fun h => h3 ⟨h, hp⟩]
    exact ⟨rfl, rfl⟩

theorem pass_loose {inn : ℕ → Prop} {D : ℕ → EndPt → Prop} (x xd : V) (l : List (ℕ × EndPt)) (hl : ∀ a ∈ l, D a.1 a.2)
    (f : ℕ → Line) (k : ℕ) : Loose (inn k) (D k) (f k) (pass x xd l f k) := by
  unfold pass
  induction l generalizing f with
  | nil => exact Loose.refl _ _ _
  | cons a l ih =>
    rw [List.foldl_cons]
    refine Loose.trans ?_ (ih (fun b hb => hl b (List.mem_cons_of_mem _ hb)) _)
    rw [Function.update_apply]
    split_ifs with hk
    · subst hk
      exact loose_setEnd _ _ _ _ (hl a List.mem_cons_self)
    · exact Loose.refl _ _ _

theorem SameBuild.refl (m : Mem) : SameBuild S m m :=
  ⟨fun _ => Loose.refl _ _ _, fun _ => ⟨rfl, fun _ => rfl⟩, fun _ _ => rfl⟩

theorem SameBuild.symm {m m' : Mem} (h : SameBuild S m m') : SameBuild S m' m := by
  refine ⟨fun k => (h.line k).symm, fun i => ⟨?_, fun hi => ((h.point i).2 hi).symm⟩, fun i hi => (h.ves i hi).symm⟩
  rw [(h.point i).1]

theorem SameBuild.trans {m m' m'' : Mem} (h : SameBuild S m m') (h' : SameBuild S m' m'') : SameBuild S m m'' := by
  refine ⟨fun k => (h.line k).trans (h'.line k), fun i => ⟨?_, fun hi => ((h'.point i).2 hi).trans ((h.point i).2 hi)⟩,
    fun i hi => (h'.ves i hi).trans (h.ves i hi)⟩
  rw [(h'.point i).1]
  conv_lhs => rw [(h.point i).1]

theorem SameNow.build {m m' : Mem} (h : SameNow m m') : SameBuild S m m' := by
  refine ⟨fun k => ?_, fun i => ?_, fun i _ => congrFun h.ves i⟩
  · rw [h.line]; exact Loose.refl _ _ _
  · rw [h.point]; exact ⟨rfl, fun _ => rfl⟩

theorem build_move (m : Mem) (i : ℕ) (hi : Moves S i) (x xd : V) : SameBuild S m (move S i x xd m) := by
  refine ⟨fun k => pass_loose (inn := fun k => k < S.nl) (D := Carried S) x xd (S.att i) (fun a ha => ⟨i, hi, ha⟩) m.line k,
    fun j => ?_, fun _ _ => rfl⟩
  simp only [Moored.move, Function.update_apply]
  split_ifs with hj
  · subst hj
    exact ⟨rfl, fun h => absurd hi h⟩
  · exact ⟨rfl, fun _ => rfl⟩

theorem build_foldl (f : Mem → ℕ → Mem) (l : List ℕ) (hf : ∀ m, ∀ i ∈ l, SameBuild S m (f m i)) (m : Mem) :
    SameBuild S m (l.foldl f m) := by
  induction l generalizing m with
  | nil => exact SameBuild.refl m
  | cons a l ih =>
    exact (hf m a List.mem_cons_self).trans (ih (fun m i hi => hf m i (List.mem_cons_of_mem _ hi)) _)

theorem build_update (t tl : ℝ) (e : State) (m : Mem) : SameBuild S m (update S t tl e m) := by
  have h1 := build_foldl (S := S) (fairlead S tl) (List.range S.np)
    (by
      intro m i hi
      unfold fairlead
      split_ifs with hk
      · exact build_move m i ⟨List.mem_range.1 hi, by rw [hk]; decide⟩ _ _
      · exact SameBuild.refl m) m
  have h2 := build_foldl (S := S) (freeState S e) (List.range S.np)
    (by
      intro m i hi
      unfold freeState
      split_ifs with hk
      · exact build_move m i ⟨List.mem_range.1 hi, by rw [hk]; decide⟩ _ _
      · exact SameBuild.refl m) ((List.range S.np).foldl (fairlead S tl) m)
  refine (h1.trans h2).trans ⟨fun k => ?_, fun i => ⟨rfl, fun _ => rfl⟩, fun _ _ => rfl⟩
  simp only [update]
  split_ifs with hk
  · refine ⟨rfl, fun j h3 h4 h5 => ?_, fun _ => rfl, fun _ => rfl⟩
    simp only [lineState]
    rw [if_neg fun h => h3 ⟨hk, h⟩, if_neg fun h => h3 ⟨hk, h⟩]
    exact ⟨rfl, rfl⟩
  · exact Loose.refl _ _ _

theorem build_initiate (x : ℕ → V × V) (m : Mem) : SameBuild S m (initiate S x m) :=
  ⟨fun _ => Loose.refl _ _ _, fun _ => ⟨rfl, fun _ => rfl⟩, fun i hi => by simp only [initiate, if_neg hi]⟩

theorem build_eval (m : Mem) : SameBuild S m (eval S m).2 :=
  ⟨fun _ => Loose.refl _ _ _, fun _ => ⟨rfl, fun _ => rfl⟩, fun i hi => rfl⟩

/-- C109: no calls change what the system is built of, with any scheme and any internal time step. -/
theorem C109_history (ax : Aux ℝ State) (sc : Scheme ℝ) (dtM0 : ℝ) (fuel : ℕ) (calls : List ((ℕ → V × V) × ℝ))
    (s e : Sim ℝ State Mem) (he : calls.foldlM (call S ax sc dtM0 fuel) s = some e) : SameBuild S s.m e.m := by
  by_contra hn
  refine Relate.moored_ok (ok := fun m => ¬ SameBuild S s.m m) ⟨?_, ?_, ?_⟩ ?_ ax sc dtM0 fuel calls s e he hn (SameBuild.refl _)
  · exact fun t tl e m h h1 => h (h1.trans (build_update t tl e m))
  · exact fun m h h1 => h (h1.trans (build_eval m))
  · exact fun m h h1 => h h1
  · exact fun x m h h1 => h (h1.trans (build_initiate x m))

/-! ## What happens afterwards -/

theorem now_rates {m m' : Mem} (h : SameNow m m') : (eval S m').1 = (eval S m).1 ∧
    ∀ i, reported S m' i = reported S m i := by
  obtain ⟨t, line, point, ves, bad, edge, spans, bends⟩ := m
  obtain ⟨t', line', point', ves', bad', edge', spans', bends'⟩ := m'
  obtain ⟨h1, h2, h3, h4⟩ := h
  cases h1; cases h2; cases h3; cases h4
  exact ⟨rfl, fun i => rfl⟩

/-- C109: accelerations and forces depend on the state, the time and the motion asked of the coupled points only, not on
what happened before. -/
theorem C109_rates {m m' : Mem} (h : SameBuild S m m') (x : ℕ → V × V) (t tl : ℝ) (e : State) :
    let now := update S t tl e (initiate S x m)
    let now' := update S t tl e (initiate S x m')
    now'.line = now.line ∧ now'.point = now.point ∧ (eval S now').1 = (eval S now).1 ∧
      ∀ i, reported S now' i = reported S now i := by
  have h1 : SameBuild S (initiate S x m) (initiate S x m') := ((build_initiate x m).symm.trans h).trans (build_initiate x m')
  have h2 : (initiate S x m').ves = (initiate S x m).ves := by
    funext i
    simp only [initiate]
    split_ifs with hi
    · rfl
    · exact h.ves i hi
  have h3 := C109_update h1 h2 t tl e
  exact ⟨h3.line, h3.point, now_rates h3⟩

theorem machine_alike : Relate.Alike 1 (fun _ => True) (machine S) (machine S) (· = ·) (· = ·) SameNow where
  zero := rfl
  add := by rintro a _ b _ rfl rfl; rfl
  smul := by rintro x a _ rfl; rfl
  move := by rintro x a _ b _ rfl rfl; rw [one_mul]
  update := by
    rintro t tl e _ m m' rfl h
    rw [one_mul, one_mul]
    exact C109_update h.build h.ves t tl e
  rate := fun m m' h _ => (now_rates h).1.symm
  eval := fun m m' h _ => ⟨h.t, h.line, h.point, h.ves⟩
  next := fun m m' h => h
  okU := fun _ _ _ _ _ => trivial
  okE := fun _ _ => trivial
  okN := fun _ _ => trivial

theorem aux_alike (ax : Aux ℝ State) : Relate.AuxAlike 1 ax ax (· = ·) (· = ·) where
  relax := fun _ _ => rfl
  newmark := by rintro ga be a _ b _ h rfl rfl; rw [one_mul]
  wilson := by rintro a _ b _ ta h rfl rfl; rw [one_mul, one_mul]
  sel := by rintro a _ b _ rfl rfl; rfl
  ssub := by rintro x a _ b _ rfl rfl; rw [one_mul]

theorem ends (ax : Aux ℝ State) : Relate.Ends ax ax (· = ·) := by
  rintro ⟨a, b⟩ ⟨_, _⟩ ⟨c, d⟩ ⟨_, _⟩ rfl rfl rfl rfl
  rfl

/-- The same state, rates and time, in systems of the same parts. -/
structure Resumed (S : System) (s s' : Sim ℝ State Mem) : Prop where
  t : s'.t = s.t
  r : s'.r 0 = s.r 0
  rd : s'.rd = s.rd
  n : s'.n = s.n
  m : SameBuild S s.m s'.m

theorem mem_ext {m m' : Mem} (h : SameNow m m') (h1 : m'.bad = m.bad) (h2 : m'.edge = m.edge) (h3 : m'.spans = m.spans)
    (h4 : m'.bends = m.bends) : m' = m := by
  obtain ⟨t, line, point, ves, bad, edge, spans, bends⟩ := m
  obtain ⟨t', line', point', ves', bad', edge', spans', bends'⟩ := m'
  obtain ⟨h5, h6, h7, h8⟩ := h
  cases h1; cases h2; cases h3; cases h4; cases h5; cases h6; cases h7; cases h8
  rfl

theorem foldl_flags (f : Mem → ℕ → Mem) (hf : ∀ m i, (f m i).bad = m.bad ∧ (f m i).edge = m.edge ∧
    (f m i).spans = m.spans ∧ (f m i).bends = m.bends ∧ (f m i).ves = m.ves) (l : List ℕ) (m : Mem) :
    (l.foldl f m).bad = m.bad ∧ (l.foldl f m).edge = m.edge ∧ (l.foldl f m).spans = m.spans ∧
      (l.foldl f m).bends = m.bends ∧ (l.foldl f m).ves = m.ves := by
  induction l generalizing m with
  | nil => exact ⟨rfl, rfl, rfl, rfl, rfl⟩
  | cons a l ih =>
    obtain ⟨h1, h2, h3, h4, h5⟩ := ih (f m a)
    obtain ⟨g1, g2, g3, g4, g5⟩ := hf m a
    exact ⟨h1.trans g1, h2.trans g2, h3.trans g3, h4.trans g4, h5.trans g5⟩

theorem update_flags (t tl : ℝ) (e : State) (m : Mem) : (update S t tl e m).bad = m.bad ∧
    (update S t tl e m).edge = m.edge ∧ (update S t tl e m).spans = m.spans ∧ (update S t tl e m).bends = m.bends ∧
    (update S t tl e m).ves = m.ves := by
  obtain ⟨h1, h2, h3, h4, h5⟩ := foldl_flags (freeState S e)
    (by intro m i; unfold freeState; split_ifs <;> exact ⟨rfl, rfl, rfl, rfl, rfl⟩) (List.range S.np)
    ((List.range S.np).foldl (fairlead S tl) m)
  obtain ⟨g1, g2, g3, g4, g5⟩ := foldl_flags (fairlead S tl)
    (by intro m i; unfold fairlead; split_ifs <;> exact ⟨rfl, rfl, rfl, rfl, rfl⟩) (List.range S.np) m
  exact ⟨h1.trans g1, h2.trans g2, h3.trans g3, h4.trans g4, h5.trans g5⟩

/-- Telling the objects two states one after the other is telling them the second. -/
theorem update_update (t tl t' tl' : ℝ) (e e' : State) (m : Mem) :
    update S t tl e (update S t' tl' e' m) = update S t tl e m := by
  obtain ⟨h1, h2, h3, h4, h5⟩ := update_flags (S := S) t' tl' e' m
  obtain ⟨g1, g2, g3, g4, g5⟩ := update_flags (S := S) t tl e (update S t' tl' e' m)
  obtain ⟨k1, k2, k3, k4, k5⟩ := update_flags (S := S) t tl e m
  exact mem_ext (C109_update (build_update t' tl' e' m) h5 t tl e) (g1.trans (h1.trans k1.symm)) (g2.trans (h2.trans k2.symm))
    (g3.trans (h3.trans k3.symm)) (g4.trans (h4.trans k4.symm))

/-- The first thing a call does is to tell the objects the state. -/
theorem call_told (ax : Aux ℝ State) (sc : Scheme ℝ) (dtM0 : ℝ) (fuel : ℕ) (dt : ℝ) (hd : 0 < dt) (s : Sim ℝ State Mem) :
    outerStep (ε := Empty) dtM0 (next (machine S)) (fun h s => .ok (stepOf (machine S) ax sc h s)) fuel dt s =
    outerStep (ε := Empty) dtM0 (next (machine S)) (fun h s => .ok (stepOf (machine S) ax sc h s)) fuel dt
      { s with tl := 0, m := update S 0 0 0 s.m } := by
  unfold outerStep
  rw [if_neg (not_le.2 hd), if_neg (not_le.2 hd)]
  cases fuel with
  | zero => rw [subLoop, subLoop, if_pos hd, if_pos hd]
  | succ f =>
    rw [subLoop, subLoop, if_pos hd, if_pos hd]
    have h : Relate.Told (machine S) (next (machine S) s) (next (machine S) { s with tl := 0, m := update S 0 0 0 s.m }) :=
      ⟨rfl, rfl, rfl, rfl, rfl, fun t tl e => (update_update t tl 0 0 e 0 s.m).symm⟩
    simp only [Relate.step_told ax sc _ h]

theorem same_one (ax : Aux ℝ State) (sc : Scheme ℝ) (dtM0 : ℝ) (fuel : ℕ) (x : (ℕ → V × V) × ℝ) (s s' e : Sim ℝ State Mem)
    (h : Resumed S s s') (he : call S ax sc dtM0 fuel s x = some e) :
    ∃ e', call S ax sc dtM0 fuel s' x = some e' ∧ Resumed S e e' ∧
      (0 < x.2 ∨ SameNow s.m s'.m → SameNow e.m e'.m) := by
  have hb : SameBuild S (initiate S x.1 s.m) (initiate S x.1 s'.m) :=
    ((build_initiate x.1 s.m).symm.trans h.m).trans (build_initiate x.1 s'.m)
  have hv : (initiate S x.1 s'.m).ves = (initiate S x.1 s.m).ves := by
    funext i
    simp only [initiate]
    split_ifs with hi
    · rfl
    · exact h.m.ves i hi
  unfold call at he
  split at he
  · rename_i e1 hs hr
    cases he
    by_cases hd : 0 < x.2
    · rw [call_told _ _ _ _ _ hd] at hr
      have h0 : Relate.Same 1 (· = ·) (· = ·) SameNow (· = 0)
          { s with tl := 0, m := update S 0 0 0 (initiate S x.1 s.m) }
          { s' with tl := 0, m := update S 0 0 0 (initiate S x.1 s'.m) } :=
        ⟨by rw [one_mul]; exact h.t, by simp, h.n, by rintro k rfl; exact h.r.symm, fun k => (congrFun h.rd k).symm,
          C109_update hb hv 0 0 0⟩
      obtain ⟨-, e', h1, h2⟩ := Relate.same_call one_pos machine_alike (aux_alike ax) sc (.inr (ends ax)) (one_mul dtM0).symm fuel
        (one_mul x.2).symm h0 _ _ hr trivial
      refine ⟨e', ?_, ⟨by rw [h2.t, one_mul], (h2.r 0 rfl).symm, funext fun k => (h2.rd k).symm, h2.n, h2.m.build⟩, fun _ => h2.m⟩
      unfold call
      rw [call_told _ _ _ _ _ hd, h1]
    · unfold outerStep at hr
      rw [if_pos (not_lt.1 hd)] at hr
      simp only [Option.some.injEq, Prod.mk.injEq, Except.ok.injEq] at hr
      obtain ⟨rfl, -⟩ := hr
      refine ⟨{ s' with m := initiate S x.1 s'.m }, ?_, ⟨h.t, h.r, h.rd, h.n, hb⟩, ?_⟩
      · unfold call outerStep
        rw [if_pos (not_lt.1 hd)]
      · rintro (h1 | h1)
        · exact absurd h1 hd
        · exact ⟨h1.t, h1.line, h1.point, hv⟩
  · cases he

/-- C109: a system of the same parts, whatever has happened to it before, that is given the state, the rates of change and
the time of another one, does what the other one does, call by call, with every scheme: state, rates and time are the same
after any further calls, and so are, once time has passed, the places and velocities of all objects (`SameNow`). -/
theorem C109_resumed (ax : Aux ℝ State) (sc : Scheme ℝ) (dtM0 : ℝ) (fuel : ℕ) (calls : List ((ℕ → V × V) × ℝ))
    (s s' e : Sim ℝ State Mem) (h : Resumed S s s') (he : calls.foldlM (call S ax sc dtM0 fuel) s = some e) :
    ∃ e', calls.foldlM (call S ax sc dtM0 fuel) s' = some e' ∧ Resumed S e e' ∧
      ((∃ x ∈ calls, 0 < x.2) ∨ SameNow s.m s'.m → SameNow e.m e'.m) := by
  induction calls generalizing s s' with
  | nil =>
    cases he
    exact ⟨s', rfl, h, fun h => h.elim (fun ⟨x, hx, _⟩ => absurd hx List.not_mem_nil) id⟩
  | cons x calls ih =>
    rw [List.foldlM_cons] at he
    cases h1 : call S ax sc dtM0 fuel s x with
    | none => rw [h1] at he; cases he
    | some e1 =>
      rw [h1] at he
      obtain ⟨e2, h2, h3, h4⟩ := same_one ax sc dtM0 fuel x s s' e1 h h1
      obtain ⟨e', h5, h6, h7⟩ := ih e1 e2 h3 he
      refine ⟨e', ?_, h6, ?_⟩
      · rw [List.foldlM_cons, h2]
        exact h5
      · rintro (⟨y, hy, hp⟩ | hn)
        · rcases List.mem_cons.1 hy with rfl | hy
          · exact h7 (.inr (h4 (.inl hp)))
          · exact h7 (.inl ⟨y, hy, hp⟩)
        · exact h7 (.inr (h4 (.inr hn)))

/-- `MoorDyn_Load` of what `MoorDyn_Save` wrote in `s`, into `s'`: `TimeSchemeBase::Deserialize` (source/Time.hpp:668-719,
1097-1106), `Point::Deserialize` (source/Point.cpp:406-418) and `Line::Deserialize` (source/Line.cpp:1423-1451); that what
is read is what was written is C04.  The forces that are also stored are written before they are used. -/
noncomputable def load (s s' : Sim ℝ State Mem) : Sim ℝ State Mem :=
  { s' with
    t := s.t
    r := s.r
    rd := s.rd
    n := s.n
    m := { s'.m with
           t := s.m.t
           line := fun k => { s'.m.line k with
                              r := (s.m.line k).r
                              rd := (s.m.line k).rd }
           point := fun i => { s'.m.point i with
                               r := (s.m.point i).r
                               rd := (s.m.point i).rd }
           ves := s.m.ves } }

theorem load_resumed {s s' : Sim ℝ State Mem} (h : SameBuild S s.m s'.m) : Resumed S s (load s s') := by
  refine ⟨rfl, rfl, rfl, rfl, fun k => ?_, fun i => ⟨?_, fun hi => ?_⟩, fun _ _ => rfl⟩
  · have hk := h.line k
    refine ⟨?_, fun _ _ _ _ => ⟨rfl, rfl⟩, hk.typeA, hk.typeB⟩
    simp only [load]
    rw [hk.parts]
  · simp only [load]
    rw [(h.point i).1]
  · simp only [load]
    rw [(h.point i).2 hi]

/-- C109: simulate a system (`before`), save it, load it into another one read from the same file and with any history of
its own (`other`), and go on: for any further calls the result is that of the simulation that was not interrupted. -/
theorem C109_restart (ax : Aux ℝ State) (sc : Scheme ℝ) (dtM0 : ℝ) (fuel : ℕ)
    (before other after : List ((ℕ → V × V) × ℝ)) (s₀ s s' e : Sim ℝ State Mem)
    (hs : before.foldlM (call S ax sc dtM0 fuel) s₀ = some s) (hs' : other.foldlM (call S ax sc dtM0 fuel) s₀ = some s')
    (he : (before ++ after).foldlM (call S ax sc dtM0 fuel) s₀ = some e) :
    ∃ e', after.foldlM (call S ax sc dtM0 fuel) (load s s') = some e' ∧
      e'.t = e.t ∧ e'.r 0 = e.r 0 ∧ e'.rd = e.rd ∧ e'.n = e.n ∧
      ((∃ x ∈ after, 0 < x.2) → e'.m.line = e.m.line ∧ e'.m.point = e.m.point ∧
        ∀ i, reported S e'.m i = reported S e.m i) := by
  rw [List.foldlM_append, hs] at he
  have h := load_resumed ((C109_history ax sc dtM0 fuel before s₀ s hs).symm.trans (C109_history ax sc dtM0 fuel other s₀ s' hs'))
  obtain ⟨e', h1, h2, h3⟩ := C109_resumed ax sc dtM0 fuel after s _ e h he
  refine ⟨e', h1, h2.t, h2.r, h2.rd, h2.n, fun hx => ?_⟩
  have h4 := h3 (.inl hx)
  exact ⟨h4.line, h4.point, (now_rates h4).2⟩

/-- A call of one internal time step ends, with any scheme. -/
theorem call_ends (ax : Aux ℝ State) (sc : Scheme ℝ) (d : ℝ) (hd : 0 < d) (s : Sim ℝ State Mem) (x : ℕ → V × V) :
    ∃ e, call S ax sc d 1 s (x, d) = some e := by
  unfold call outerStep
  rw [if_neg (not_le.2 hd), subLoop, if_pos hd]
  simp only [lt_irrefl, gt_iff_lt, if_false, sub_self]
  rw [subLoop, if_neg (by simp)]
  exact ⟨_, rfl⟩

/-- Three calls, saved after the first one and loaded into a fresh system. -/
example (ax : Aux ℝ State) (sc : Scheme ℝ) (s₀ : Sim ℝ State Mem) (x y z : ℕ → V × V) :
    ∃ s e, call S ax sc (1 / 10) 1 s₀ (x, 1 / 10) = some s ∧
      [(x, (1 : ℝ) / 10), (y, 1 / 10), (z, 1 / 10)].foldlM (call S ax sc (1 / 10) 1) s₀ = some e ∧
      ∃ e', [(y, (1 : ℝ) / 10), (z, 1 / 10)].foldlM (call S ax sc (1 / 10) 1) (load s s₀) = some e' ∧
        e'.m.line = e.m.line ∧ e'.m.point = e.m.point ∧ ∀ i, reported S e'.m i = reported S e.m i := by
  have hd : (0 : ℝ) < 1 / 10 := by norm_num
  obtain ⟨s, h1⟩ := call_ends (S := S) ax sc _ hd s₀ x
  obtain ⟨s2, h2⟩ := call_ends (S := S) ax sc _ hd s y
  obtain ⟨e, h3⟩ := call_ends (S := S) ax sc _ hd s2 z
  have he : ([(x, (1 : ℝ) / 10)] ++ [(y, 1 / 10), (z, 1 / 10)]).foldlM (call S ax sc (1 / 10) 1) s₀ = some e := by
    simp only [List.cons_append, List.nil_append, List.foldlM_cons, List.foldlM_nil, h1, h2, h3, Option.bind_eq_bind, Option.bind_some]
    rfl
  refine ⟨s, e, h1, he, ?_⟩
  obtain ⟨e', h4, -, -, -, -, h5⟩ := C109_restart ax sc (1 / 10) 1 [(x, 1 / 10)] [] [(y, 1 / 10), (z, 1 / 10)] s₀ s s₀ e
    (by rw [List.foldlM_cons, h1]; rfl) rfl he
  exact ⟨e', h4, h5 ⟨_, List.mem_cons_self, hd⟩⟩

/-! ## The local time steps are not stored -/

/-- C109: with the local Euler scheme a restarted simulation differs: how long ago each line was evaluated is not stored,
so after loading all lines are evaluated at once (at `h`), where the uninterrupted simulation still uses the old forces
(of time 0). -/
theorem C109_local_false (dtLine h : ℝ) (h0 : 0 < h) (hl : 2 * h < 999 / 1000 * dtLine) :
    ((Motion.localRun 0 [h, h] [Motion.Clock.line dtLine 0]).2.map fun c => c.last) = [0] ∧
      ((Motion.localRun h [h] [Motion.Clock.line dtLine 0]).2.map fun c => c.last) = [h] := by
  have h1 : dtLine + h ≥ 999 / 1000 * dtLine := by linarith
  have h2 : ¬ (h + h ≥ 999 / 1000 * dtLine) := by linarith
  simp [Motion.localRun, Motion.localStep, Motion.Clock.line, Motion.Clock.setMask, h1, h2]

example : ((Motion.localRun (0 : ℝ) [1, 1] [Motion.Clock.line 4 0]).2.map fun c => c.last) ≠
    ((Motion.localRun (1 : ℝ) [1] [Motion.Clock.line 4 0]).2.map fun c => c.last) := by
  obtain ⟨h1, h2⟩ := C109_local_false 4 1 (by norm_num) (by norm_num)
  rw [h1, h2]
  norm_num

end MD.Restart
