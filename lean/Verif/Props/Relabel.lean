import Verif.Props.Reverse
import Verif.Model.Moored
import Verif.Lemmas.Simulate
import Verif.Props.FrameMotion

/-!
# C100 and C101: the numbers of the objects and the directions of the lines can be chosen freely
-/

set_option linter.unusedSimpArgs false
set_option linter.unusedSectionVars false
set_option linter.unusedVariables false

namespace MD.Relabel

open Matrix MD.Mat MD.Mooring MD.Bodies MD.Moored MD.Reverse MD.Time
open MD.Frame (AlikeIf AuxAlike Same Decides auxOf call same_call call_ok)

/-! ## Specification -/

/-- New numbers for the lines and for the points, and the lines whose ends are called the other way round. -/
structure Labels where
  line : ℕ ≃ ℕ
  point : ℕ ≃ ℕ
  rev : ℕ → Bool

variable (R : Labels)

/-- The end, if it is called the other way round. -/
def flip (b : Bool) (p : EndPt) : EndPt := if b then other p else p

/-- An end of a line. -/
def Labels.endOf (a : ℕ × EndPt) : ℕ × EndPt := (R.line a.1, flip (R.rev a.1) a.2)

/-- A line, perhaps counted from the other end. -/
def Turned (b : Bool) (L L' : Line) : Prop := if b then Reversed L L' else L' = L

/-- The same system with other numbers.  The order in which the lines of a point are listed is free. -/
structure SameWorld (S S' : System) : Prop where
  nl : S'.nl = S.nl
  np : S'.np = S.np
  line : ∀ i, R.line i < S.nl ↔ i < S.nl
  point : ∀ i, R.point i < S.np ↔ i < S.np
  kind : ∀ i, S'.kind (R.point i) = S.kind i
  att : ∀ i, (S'.att (R.point i)).Perm ((S.att i).map R.endOf)
  sea : S'.sea = S.sea
  kin : S'.kin = S.kin

/-- Each end of a line belongs to one point at most. -/
structure Sound (S : System) : Prop where
  one : ∀ i j a, a ∈ S.att i → a ∈ S.att j → i = j
  line : ∀ i a, a ∈ S.att i → a.1 < S.nl

/-- The same moment of two simulations, `n` being the numbers of segments of the lines. -/
structure SameMem (n : ℕ → ℕ) (m m' : Mem) : Prop where
  t : m'.t = m.t
  N : ∀ i, (m.line i).N = n i
  pos : ∀ i, 1 ≤ n i
  thick : ∀ i, 0 ≤ (m.line i).d
  line : ∀ i, Turned (R.rev i) (m.line i) (m'.line (R.line i))
  point : ∀ i, m'.point (R.point i) = m.point i
  ves : ∀ i, m'.ves (R.point i) = m.ves i
  bad : m'.bad ↔ m.bad
  edge : m'.edge ↔ m.edge

/-- The inner node `j + 1` of a line of `n` segments, counted from the other end. -/
def inner (b : Bool) (n j : ℕ) : ℕ := if b ∧ j + 2 ≤ n then n - 2 - j else j

/-- The relation of two states. -/
def lin (n : ℕ → ℕ) : State →ₗ[ℝ] State where
  toFun e := (fun k j => e.1 (R.line.symm k) (inner (R.rev (R.line.symm k)) (n (R.line.symm k)) j),
    fun k => e.2 (R.point.symm k))
  map_add' _ _ := rfl
  map_smul' _ _ := rfl

/-! ## The objects are told their places -/

/-- What is known of an end. -/
def endVal (p : EndPt) (L : Line) : V × V × EndType :=
  match p with
  | .TOP => (L.r L.N, L.rd L.N, L.endTypeB)
  | .BOTTOM => (L.r 0, L.rd 0, L.endTypeA)

/-- Only the ends may have changed. -/
structure OnlyEnds (L f : Line) : Prop where
  eq : f = { L with r := f.r, rd := f.rd, endTypeA := f.endTypeA, endTypeB := f.endTypeB }
  r : ∀ j, j ≠ 0 → j ≠ L.N → f.r j = L.r j
  rd : ∀ j, j ≠ 0 → j ≠ L.N → f.rd j = L.rd j

theorem OnlyEnds.N {L f : Line} (h : OnlyEnds L f) : f.N = L.N := by rw [h.eq]

theorem OnlyEnds.refl (L : Line) : OnlyEnds L L := ⟨rfl, fun _ _ _ => rfl, fun _ _ _ => rfl⟩

theorem OnlyEnds.trans {L f k : Line} (h : OnlyEnds L f) (h' : OnlyEnds f k) : OnlyEnds L k := by
  refine ⟨?_, fun j h0 h1 => ?_, fun j h0 h1 => ?_⟩
  · rw [h'.eq, h.eq]
  · rw [h'.r j h0 (by rw [h.N]; exact h1), h.r j h0 h1]
  · rw [h'.rd j h0 (by rw [h.N]; exact h1), h.rd j h0 h1]

theorem setEnd_only (x xd : V) (p : EndPt) (L : Line) : OnlyEnds L (setEnd x xd p L) := by
  cases p
  · exact ⟨rfl, fun j _ h1 => Function.update_of_ne h1 _ _, fun j _ h1 => Function.update_of_ne h1 _ _⟩
  · exact ⟨rfl, fun j h0 _ => Function.update_of_ne h0 _ _, fun j h0 _ => Function.update_of_ne h0 _ _⟩

theorem setEnd_end (x xd : V) (p p' : EndPt) (L : Line) (hN : 1 ≤ L.N) :
    endVal p' (setEnd x xd p L) = if p' = p then (x, xd, .PINNED) else endVal p' L := by
  have h0 : L.N ≠ 0 := by omega
  cases p <;> cases p' <;> simp [setEnd, endVal, Function.update_apply, h0, h0.symm]

theorem pass_spec (x xd : V) (l : List (ℕ × EndPt)) (f : ℕ → Line) (hN : ∀ i, 1 ≤ (f i).N) (i : ℕ) :
    OnlyEnds (f i) (pass x xd l f i) ∧
    ∀ p, ((i, p) ∈ l → endVal p (pass x xd l f i) = (x, xd, .PINNED)) ∧
      ((i, p) ∉ l → endVal p (pass x xd l f i) = endVal p (f i)) := by
  unfold pass
  induction l generalizing f with
  | nil => exact ⟨OnlyEnds.refl _, fun p => ⟨fun h => by simp at h, fun _ => rfl⟩⟩
  | cons a l ih =>
    have e : ∀ k, Function.update f a.1 (setEnd x xd a.2 (f a.1)) k = if k = a.1 then setEnd x xd a.2 (f k) else f k := by
      intro k
      simp only [Function.update_apply]
      split_ifs with h
      · rw [h]
      · rfl
    have ho : ∀ k, OnlyEnds (f k) (Function.update f a.1 (setEnd x xd a.2 (f a.1)) k) := by
      intro k
      rw [e]
      split_ifs
      · exact setEnd_only _ _ _ _
      · exact OnlyEnds.refl _
    obtain ⟨h1, h2⟩ := ih (Function.update f a.1 (setEnd x xd a.2 (f a.1))) (fun k => by rw [(ho k).N]; exact hN k)
    refine ⟨(ho i).trans h1, fun p => ⟨fun hp => ?_, fun hp => ?_⟩⟩
    · by_cases hl : (i, p) ∈ l
      · exact (h2 p).1 hl
      · have ha : a = (i, p) := by
          rcases List.mem_cons.1 hp with h | h
          · exact h.symm
          · exact absurd h hl
        rw [List.foldl_cons, (h2 p).2 hl, e, ha, if_pos rfl, setEnd_end _ _ _ _ _ (hN i), if_pos rfl]
    · have hl : (i, p) ∉ l := fun h => hp (List.mem_cons_of_mem _ h)
      rw [List.foldl_cons, (h2 p).2 hl, e]
      split_ifs with hi
      · rw [setEnd_end _ _ _ _ _ (hN i), if_neg]
        intro hpa
        apply hp
        have : a = (i, p) := by
          rw [hi, hpa]
        rw [this]
        exact List.mem_cons_self
      · rfl

/-- The points that are moved, with their new positions and velocities. -/
def placed (S : System) (tl : ℝ) (e : State) (ves : ℕ → V × V) (i : ℕ) : Option (V × V) :=
  if i < S.np then
    match S.kind i with
    | .COUPLED => some ((ves i).1 + tl • (ves i).2, (ves i).2)
    | .FREE => some (e.2 i)
    | .FIXED => none
  else none

/-- What a series of moves has done. -/
structure Moves (S : System) (ms : List (ℕ × V × V)) (m u : Mem) : Prop where
  t : u.t = m.t
  ves : u.ves = m.ves
  bad : u.bad = m.bad
  edge : u.edge = m.edge
  only : ∀ i, OnlyEnds (m.line i) (u.line i)
  same : ∀ i p, (∀ a ∈ ms, (i, p) ∉ S.att a.1) → endVal p (u.line i) = endVal p (m.line i)
  moved : ∀ i p, ∀ a ∈ ms, (i, p) ∈ S.att a.1 → (∀ b ∈ ms, (i, p) ∈ S.att b.1 → b.2 = a.2) →
    endVal p (u.line i) = (a.2.1, a.2.2, .PINNED)
  stays : ∀ i, (∀ a ∈ ms, a.1 ≠ i) → u.point i = m.point i
  goes : ∀ a ∈ ms, (∀ b ∈ ms, b.1 = a.1 → b.2 = a.2) → u.point a.1 = { m.point a.1 with r := a.2.1, rd := a.2.2 }

theorem moves_spec (S : System) (ms : List (ℕ × V × V)) (m : Mem) (hN : ∀ i, 1 ≤ (m.line i).N) :
    Moves S ms m (ms.foldl (fun m a => move S a.1 a.2.1 a.2.2 m) m) := by
  induction ms generalizing m with
  | nil =>
    exact ⟨rfl, rfl, rfl, rfl, fun i => OnlyEnds.refl _, fun _ _ _ => rfl, fun _ _ a ha => by simp at ha, fun _ _ => rfl,
      fun a ha => by simp at ha⟩
  | cons a ms ih =>
    have hp := pass_spec a.2.1 a.2.2 (S.att a.1) m.line hN
    have hN' : ∀ i, 1 ≤ ((move S a.1 a.2.1 a.2.2 m).line i).N := fun i => by
      show 1 ≤ (pass _ _ _ _ i).N
      rw [(hp i).1.N]
      exact hN i
    have h := ih (move S a.1 a.2.1 a.2.2 m) hN'
    rw [List.foldl_cons]
    refine ⟨h.t, h.ves, h.bad, h.edge, fun i => (hp i).1.trans (h.only i), ?_, ?_, ?_, ?_⟩
    · intro i p hi
      rw [h.same i p fun b hb => hi b (List.mem_cons_of_mem _ hb)]
      exact ((hp i).2 p).2 (hi a List.mem_cons_self)
    · intro i p b hb hib hall
      by_cases hex : ∃ k ∈ ms, (i, p) ∈ S.att k.1
      · obtain ⟨k, hk, hik⟩ := hex
        have ek := hall k (List.mem_cons_of_mem _ hk) hik
        rw [h.moved i p k hk hik fun k' hk' hik' => by
          rw [hall k' (List.mem_cons_of_mem _ hk') hik', ek], ek]
      · push Not at hex
        have hba : b = a := by
          rcases List.mem_cons.1 hb with hb | hb
          · exact hb
          · exact absurd hib (hex b hb)
        rw [h.same i p hex]
        subst hba
        exact ((hp i).2 p).1 hib
    · intro i hi
      rw [h.stays i fun b hb => hi b (List.mem_cons_of_mem _ hb)]
      exact Function.update_of_ne (hi a List.mem_cons_self).symm _ _
    · intro b hb hall
      by_cases hex : ∃ k ∈ ms, k.1 = b.1
      · obtain ⟨k, hk, hik⟩ := hex
        have ek := hall k (List.mem_cons_of_mem _ hk) hik
        rw [← hik, h.goes k hk fun k' hk' hik' => by
          rw [hall k' (List.mem_cons_of_mem _ hk') (hik'.trans hik), ek], ek]
        simp only [move, Function.update_apply]
        split_ifs with hka
        · rw [hka]
        · rfl
      · push Not at hex
        have hba : b = a := by
          rcases List.mem_cons.1 hb with hb | hb
          · exact hb
          · exact absurd rfl (hex b hb)
        rw [h.stays b.1 hex]
        subst hba
        simp [move]

/-- The moves done by `update`. -/
def movesOf (S : System) (tl : ℝ) (e : State) (ves : ℕ → V × V) : List (ℕ × V × V) :=
  ((List.range S.np).filterMap fun i =>
    if S.kind i = .COUPLED then some (i, (ves i).1 + tl • (ves i).2, (ves i).2) else none) ++
  (List.range S.np).filterMap fun i => if S.kind i = .FREE then some (i, e.2 i) else none

theorem mem_movesOf (S : System) (tl : ℝ) (e : State) (ves : ℕ → V × V) (a : ℕ × V × V) :
    a ∈ movesOf S tl e ves ↔ placed S tl e ves a.1 = some a.2 := by
  unfold movesOf placed
  rw [List.mem_append, List.mem_filterMap, List.mem_filterMap]
  constructor
  · rintro (⟨i, hi, h⟩ | ⟨i, hi, h⟩)
    · split_ifs at h with hk
      simp only [Option.some.injEq] at h
      subst h
      rw [if_pos (List.mem_range.1 hi), hk]
    · split_ifs at h with hk
      simp only [Option.some.injEq] at h
      subst h
      rw [if_pos (List.mem_range.1 hi), hk]
  · intro h
    split_ifs at h with hi
    split at h
    · rename_i hk
      left
      refine ⟨a.1, List.mem_range.2 hi, ?_⟩
      rw [if_pos hk]
      simp only [Option.some.injEq] at h
      rw [h]
    · rename_i hk
      right
      refine ⟨a.1, List.mem_range.2 hi, ?_⟩
      rw [if_pos hk]
      simp only [Option.some.injEq] at h
      rw [h]
    · cases h

theorem folds_eq (S : System) (tl : ℝ) (e : State) (m : Mem) :
    (List.range S.np).foldl (freeState S e) ((List.range S.np).foldl (fairlead S tl) m) =
      (movesOf S tl e m.ves).foldl (fun m a => move S a.1 a.2.1 a.2.2 m) m := by
  unfold movesOf
  rw [List.foldl_append]
  have h1 : ∀ (l : List ℕ) (u : Mem), u.ves = m.ves → l.foldl (fairlead S tl) u =
      (l.filterMap fun i => if S.kind i = .COUPLED then some (i, (m.ves i).1 + tl • (m.ves i).2, (m.ves i).2) else none).foldl
        (fun m a => move S a.1 a.2.1 a.2.2 m) u := by
    intro l
    induction l with
    | nil => intro u _; rfl
    | cons i l ih =>
      intro u hu
      rw [List.foldl_cons, List.filterMap_cons]
      unfold fairlead
      by_cases hk : S.kind i = .COUPLED
      · simp only [if_pos hk, hu, List.foldl_cons]
        exact ih _ hu
      · simp only [if_neg hk]
        exact ih _ hu
  have h2 : ∀ (l : List ℕ) (u : Mem), l.foldl (freeState S e) u =
      (l.filterMap fun i => if S.kind i = .FREE then some (i, e.2 i) else none).foldl
        (fun m a => move S a.1 a.2.1 a.2.2 m) u := by
    intro l
    induction l with
    | nil => intro u; rfl
    | cons i l ih =>
      intro u
      rw [List.foldl_cons, List.filterMap_cons]
      unfold freeState
      by_cases hk : S.kind i = .FREE
      · simp only [if_pos hk, List.foldl_cons]
        exact ih _
      · simp only [if_neg hk]
        exact ih _
  rw [h1 _ _ rfl, h2]

/-! ## The updates -/

@[simp] theorem flip_false (p : EndPt) : flip false p = p := rfl
@[simp] theorem flip_true (p : EndPt) : flip true p = other p := rfl

theorem flip_inj (b : Bool) : Function.Injective (flip b) := by
  intro p p' h
  cases b <;> cases p <;> cases p' <;> simp_all [flip, other]

theorem endOf_inj : Function.Injective R.endOf := by
  rintro ⟨i, p⟩ ⟨j, p'⟩ h
  simp only [Labels.endOf, Prod.mk.injEq] at h
  have hij := R.line.injective h.1
  subst hij
  rw [flip_inj _ h.2]

variable {R}

theorem SameWorld.mem {S S' : System} (hw : SameWorld R S S') (i : ℕ) (a : ℕ × EndPt) :
    R.endOf a ∈ S'.att (R.point i) ↔ a ∈ S.att i := by
  rw [(hw.att i).mem_iff, List.mem_map]
  exact ⟨fun ⟨b, hb, h⟩ => endOf_inj R h ▸ hb, fun h => ⟨a, h, rfl⟩⟩

theorem SameWorld.sound {S S' : System} (hw : SameWorld R S S') (h : Sound S) : Sound S' := by
  constructor
  · intro i j a hi hj
    obtain ⟨i, rfl⟩ := R.point.surjective i
    obtain ⟨j, rfl⟩ := R.point.surjective j
    obtain ⟨b, hb, rfl⟩ := List.mem_map.1 ((hw.att i).mem_iff.1 hi)
    rw [hw.mem] at hj
    rw [h.one i j b hb hj]
  · intro i a hi
    obtain ⟨i, rfl⟩ := R.point.surjective i
    obtain ⟨b, hb, rfl⟩ := List.mem_map.1 ((hw.att i).mem_iff.1 hi)
    rw [hw.nl]
    exact (hw.line _).2 (h.line i b hb)

theorem turned_N {b : Bool} {L L' : Line} (h : Turned b L L') : L'.N = L.N := by
  cases b
  · have : L' = L := h
    rw [this]
  · exact Reversed.N h

theorem turned_end {b : Bool} {L L' : Line} (h : Turned b L L') (p : EndPt) : endVal (flip b p) L' = endVal p L := by
  cases b
  · have : L' = L := h
    rw [this]
    rfl
  · have h : Reversed L L' := h
    cases p
    · simp [endVal, other, h.r 0 (Nat.zero_le _), h.rd 0 (Nat.zero_le _), h.endTypeA]
    · simp [endVal, other, h.N, h.r L.N le_rfl, h.rd L.N le_rfl, h.endTypeB]

theorem turned_ext {b : Bool} {L L' f f' : Line} (h : Turned b L L') (hf : OnlyEnds L f) (hf' : OnlyEnds L' f')
    (he : ∀ p, endVal (flip b p) f' = endVal p f) : Turned b f f' := by
  cases b
  · have e : L' = L := h
    subst e
    have h1 := he .TOP
    have h0 := he .BOTTOM
    simp only [flip_false, endVal, Prod.mk.injEq, hf.N, hf'.N] at h0 h1
    show f' = f
    rw [hf.eq, hf'.eq]
    have er : f'.r = f.r := by
      funext j
      by_cases j0 : j = 0
      · rw [j0]; exact h0.1
      · by_cases j1 : j = L'.N
        · rw [j1]; exact h1.1
        · rw [hf.r j j0 j1, hf'.r j j0 j1]
    have erd : f'.rd = f.rd := by
      funext j
      by_cases j0 : j = 0
      · rw [j0]; exact h0.2.1
      · by_cases j1 : j = L'.N
        · rw [j1]; exact h1.2.1
        · rw [hf.rd j j0 j1, hf'.rd j j0 j1]
    rw [er, erd, h0.2.2, h1.2.2]
  · have h : Reversed L L' := h
    have h1 := he .TOP
    have h0 := he .BOTTOM
    simp only [flip_true, other, endVal, Prod.mk.injEq, hf.N, hf'.N, h.N] at h0 h1
    have er : ∀ j, j ≤ L.N → f'.r j = f.r (L.N - j) := by
      intro j hj
      by_cases j0 : j = 0
      · rw [j0]; exact h1.1
      · by_cases j1 : j = L.N
        · rw [j1, Nat.sub_self]; exact h0.1
        · rw [hf.r _ (by omega) (by omega), hf'.r j j0 (by rw [h.N]; exact j1), h.r j hj]
    have erd : ∀ j, j ≤ L.N → f'.rd j = f.rd (L.N - j) := by
      intro j hj
      by_cases j0 : j = 0
      · rw [j0]; exact h1.2.1
      · by_cases j1 : j = L.N
        · rw [j1, Nat.sub_self]; exact h0.2.1
        · rw [hf.rd _ (by omega) (by omega), hf'.rd j j0 (by rw [h.N]; exact j1), h.rd j hj]
    have hA : f'.endTypeA = f.endTypeB := h1.2.2
    have hB : f'.endTypeB = f.endTypeA := h0.2.2
    show Reversed f f'
    have ef := hf.eq
    have ef' := hf'.eq
    generalize f.r = fr at ef er
    generalize f.rd = frd at ef erd
    generalize f.endTypeA = fa at ef hB
    generalize f.endTypeB = fb at ef hA
    generalize f'.r = fr' at ef' er
    generalize f'.rd = frd' at ef' erd
    generalize f'.endTypeA = fa' at ef' hA
    generalize f'.endTypeB = fb' at ef' hB
    subst ef ef'
    exact ⟨h.N, h.pos, h.d, h.A, h.rho, h.E, h.c, h.EI, h.Can, h.Cat, h.Cdn, h.Cdt, h.stiff, h.bstiff, h.damp, h.dampNeg,
      h.l, h.V, er, erd, hA, hB, h.qA, h.qB, h.pin, h.isPb⟩

theorem turned_state {b : Bool} {L L' : Line} (h : Turned b L L') (e e' : ℕ → V × V)
    (he : ∀ j, e' j = e (inner b L.N j)) : Turned b (lineState e L) (lineState e' L') := by
  cases b
  · have e1 : L' = L := h
    have e2 : e' = e := by
      funext j
      rw [he j]
      simp [inner]
    show _ = _
    rw [e1, e2]
  · have h : Reversed L L' := h
    refine ⟨h.N, h.pos, h.d, h.A, h.rho, h.E, h.c, h.EI, h.Can, h.Cat, h.Cdn, h.Cdt, h.stiff, h.bstiff, h.damp, h.dampNeg,
      h.l, h.V, ?_, ?_, h.endTypeA, h.endTypeB, h.qA, h.qB, h.pin, h.isPb⟩
    · intro j (hj : j ≤ L.N)
      show (if 1 ≤ j ∧ j < L'.N then _ else _) = if 1 ≤ L.N - j ∧ L.N - j < L.N then _ else _
      rw [h.N]
      by_cases hi : 1 ≤ j ∧ j < L.N
      · rw [if_pos hi, if_pos (show 1 ≤ L.N - j ∧ L.N - j < L.N by omega), he]
        unfold inner
        rw [if_pos ⟨rfl, by omega⟩]
        congr 2
        show L.N - 2 - (j - 1) = L.N - j - 1
        omega
      · rw [if_neg hi, if_neg (show ¬ (1 ≤ L.N - j ∧ L.N - j < L.N) by omega), h.r j hj]
        rfl
    · intro j (hj : j ≤ L.N)
      show (if 1 ≤ j ∧ j < L'.N then _ else _) = if 1 ≤ L.N - j ∧ L.N - j < L.N then _ else _
      rw [h.N]
      by_cases hi : 1 ≤ j ∧ j < L.N
      · rw [if_pos hi, if_pos (show 1 ≤ L.N - j ∧ L.N - j < L.N by omega), he]
        unfold inner
        rw [if_pos ⟨rfl, by omega⟩]
        congr 2
        show L.N - 2 - (j - 1) = L.N - j - 1
        omega
      · rw [if_neg hi, if_neg (show ¬ (1 ≤ L.N - j ∧ L.N - j < L.N) by omega), h.rd j hj]
        rfl

@[simp] theorem lin_line (n : ℕ → ℕ) (e : State) (i j : ℕ) :
    (lin R n e).1 (R.line i) j = e.1 i (inner (R.rev i) (n i) j) := by
  simp [lin]

@[simp] theorem lin_point (n : ℕ → ℕ) (e : State) (i : ℕ) : (lin R n e).2 (R.point i) = e.2 i := by
  simp [lin]

theorem placed_same {S S' : System} (hw : SameWorld R S S') (n : ℕ → ℕ) (tl : ℝ) (e : State) {ves ves' : ℕ → V × V}
    (hv : ∀ i, ves' (R.point i) = ves i) (i : ℕ) :
    placed S' tl (lin R n e) ves' (R.point i) = placed S tl e ves i := by
  unfold placed
  rw [hw.np, if_congr (hw.point i) rfl rfl, hw.kind, hv, lin_point]

/-- The ends after the moves. -/
theorem end_spec {S : System} (hS : Sound S) {tl : ℝ} {e : State} {m u : Mem} (h : Moves S (movesOf S tl e m.ves) m u)
    (i : ℕ) (p : EndPt) :
    (∀ k x, (i, p) ∈ S.att k → placed S tl e m.ves k = some x → endVal p (u.line i) = (x.1, x.2, .PINNED)) ∧
    ((∀ k, (i, p) ∈ S.att k → placed S tl e m.ves k = none) → endVal p (u.line i) = endVal p (m.line i)) := by
  constructor
  · intro k x hk hx
    refine h.moved i p (k, x) ((mem_movesOf ..).2 hx) hk ?_
    intro b hb hib
    rw [mem_movesOf, hS.one _ _ _ hib hk, hx, Option.some.injEq] at hb
    exact hb.symm
  · intro hn
    refine h.same i p ?_
    intro a ha hia
    rw [mem_movesOf, hn _ hia] at ha
    cases ha

/-- The points after the moves. -/
theorem point_spec {S : System} {tl : ℝ} {e : State} {m u : Mem} (h : Moves S (movesOf S tl e m.ves) m u) (i : ℕ) :
    u.point i = match placed S tl e m.ves i with
      | some x => { m.point i with r := x.1, rd := x.2 }
      | none => m.point i := by
  split
  · rename_i x hx
    refine h.goes (i, x) ((mem_movesOf ..).2 hx) ?_
    intro b hb hi
    rw [mem_movesOf, hi, hx, Option.some.injEq] at hb
    exact hb.symm
  · rename_i hx
    refine h.stays i ?_
    rintro a ha rfl
    rw [mem_movesOf, hx] at ha
    cases ha

theorem update_same {S S' : System} (hw : SameWorld R S S') (hS : Sound S) {n : ℕ → ℕ} (t tl : ℝ) (e : State)
    {m m' : Mem} (h : SameMem R n m m') : SameMem R n (update S t tl e m) (update S' t tl (lin R n e) m') := by
  have hN : ∀ i, 1 ≤ (m.line i).N := fun i => by rw [h.N]; exact h.pos i
  have hN' : ∀ i, 1 ≤ (m'.line i).N := fun i => by
    obtain ⟨i, rfl⟩ := R.line.surjective i
    rw [turned_N (h.line i)]
    exact hN i
  have s := moves_spec S (movesOf S tl e m.ves) m hN
  have s' := moves_spec S' (movesOf S' tl (lin R n e) m'.ves) m' hN'
  unfold update
  dsimp only
  rw [folds_eq, folds_eq]
  generalize (movesOf S tl e m.ves).foldl (fun m a => move S a.1 a.2.1 a.2.2 m) m = u at s
  generalize (movesOf S' tl (lin R n e) m'.ves).foldl (fun m a => move S' a.1 a.2.1 a.2.2 m) m' = u' at s'
  have hT : ∀ i, Turned (R.rev i) (u.line i) (u'.line (R.line i)) := by
    intro i
    refine turned_ext (h.line i) (s.only i) (s'.only _) ?_
    intro p
    obtain ⟨h1, h2⟩ := end_spec hS s i p
    obtain ⟨h1', h2'⟩ := end_spec (hw.sound hS) s' (R.line i) (flip (R.rev i) p)
    by_cases hp : ∃ k x, (i, p) ∈ S.att k ∧ placed S tl e m.ves k = some x
    · obtain ⟨k, x, hk, hx⟩ := hp
      rw [h1 k x hk hx, h1' (R.point k) x ((hw.mem k (i, p)).2 hk) (by rw [placed_same hw n tl e h.ves, hx])]
    · push Not at hp
      rw [h2 fun k hk => Option.eq_none_iff_forall_ne_some.2 (hp k · hk), h2', turned_end (h.line i)]
      intro k hk
      obtain ⟨k, rfl⟩ := R.point.surjective k
      rw [placed_same hw n tl e h.ves]
      exact Option.eq_none_iff_forall_ne_some.2 (hp k · ((hw.mem k (i, p)).1 hk))
  have hL : ∀ i, (u.line i).N = n i := fun i => by rw [(s.only i).N, h.N]
  refine ⟨rfl, ?_, h.pos, ?_, ?_, ?_, ?_, ?_, ?_⟩
  · intro i
    show (if i < S.nl then lineState (e.1 i) (u.line i) else u.line i).N = n i
    split_ifs <;> exact hL i
  · intro i
    show 0 ≤ (if i < S.nl then lineState (e.1 i) (u.line i) else u.line i).d
    have := h.thick i
    have hd : (u.line i).d = (m.line i).d := by rw [(s.only i).eq]
    split_ifs
    · show 0 ≤ (u.line i).d
      rw [hd]; exact this
    · rw [hd]; exact this
  · intro i
    show Turned _ (if i < S.nl then lineState (e.1 i) (u.line i) else u.line i)
      (if R.line i < S'.nl then lineState ((lin R n e).1 (R.line i)) (u'.line (R.line i)) else u'.line (R.line i))
    rw [hw.nl, if_congr (hw.line i) rfl rfl]
    split_ifs
    · exact turned_state (hT i) _ _ fun j => by rw [lin_line, hL]
    · exact hT i
  · intro i
    show u'.point (R.point i) = u.point i
    rw [point_spec s, point_spec s', placed_same hw n tl e h.ves, h.point]
  · intro i
    show u'.ves (R.point i) = u.ves i
    rw [s.ves, s'.ves, h.ves]
  · show u'.bad ↔ u.bad
    rw [s.bad, s'.bad, h.bad]
  · show u'.edge ↔ u.edge
    rw [s.edge, s'.edge, h.edge]

/-! ## The forces -/

theorem env_turned {S S' : System} (hw : SameWorld R S S') {n : ℕ → ℕ} {m m' : Mem} (h : SameMem R n m m') (i : ℕ)
    (hr : R.rev i = true) : SameSea (m.line i).N (lineEnv S m i) (lineEnv S' m' (R.line i)) := by
  have hl : Reversed (m.line i) (m'.line (R.line i)) := by
    have := h.line i
    rw [hr] at this
    exact this
  unfold lineEnv envOf
  rw [hw.sea, hw.kin, h.t]
  refine ⟨rfl, rfl, rfl, rfl, rfl, rfl, rfl, rfl, ?_, ?_, ?_, ?_⟩ <;> intro j hj <;> dsimp only <;> rw [hl.r j hj]

theorem env_straight {S S' : System} (hw : SameWorld R S S') {n : ℕ → ℕ} {m m' : Mem} (h : SameMem R n m m') (i : ℕ)
    (hr : R.rev i = false) : m'.line (R.line i) = m.line i ∧ lineEnv S' m' (R.line i) = lineEnv S m i := by
  have hl : m'.line (R.line i) = m.line i := by
    have := h.line i
    rw [hr] at this
    exact this
  refine ⟨hl, ?_⟩
  unfold lineEnv envOf
  rw [hw.sea, hw.kin, h.t, hl]

variable (R) in
/-- No line is turned, or no end of a segment has been exactly as high as the water over the segment. -/
def Fine (m : Mem) : Prop := (∀ i, R.rev i = false) ∨ ¬ m.edge

variable (R) in
/-- The same node counted from the other end. -/
def nodeOf (n : ℕ → ℕ) (i j : ℕ) : ℕ := if R.rev i then n i - j else j

section
variable {S S' : System} (hw : SameWorld R S S') {n : ℕ → ℕ} {m m' : Mem} (h : SameMem R n m m')
  (ho : Fine R (eval S m).2)
include h ho

theorem off {i : ℕ} (hi : i < S.nl) (hr : R.rev i = true) : OffSurface (m.line i) (lineEnv S m i) := by
  rcases ho with ho | ho
  · rw [ho i] at hr
    cases hr
  · refine ⟨h.thick i, fun j hj => ?_⟩
    by_contra hc
    apply ho
    right
    refine ⟨i, j, hi, hj, ?_⟩
    by_contra hc'
    push Not at hc'
    exact hc hc'

include hw

theorem nodeRate_same {i j : ℕ} (hi : i < S.nl) (hj : j ≤ n i) :
    nodeRate S' m' (R.line i) j = nodeRate S m i (nodeOf R n i j) := by
  have hN := h.N i
  unfold nodeRate nodeOf
  cases hr : R.rev i
  · obtain ⟨h1, h2⟩ := env_straight hw h i hr
    rw [h1, h2]
    rfl
  · have hl : Reversed (m.line i) (m'.line (R.line i)) := by
      have := h.line i
      rw [hr] at this
      exact this
    have hs := env_turned hw h i hr
    have hf := off h ho hi hr
    rw [C100_force_partial hl hs hf (hN.symm ▸ hj), C100_mass_partial hl hs hf (hN.symm ▸ hj), hl.rd j (hN.symm ▸ hj), hN]
    rfl

theorem ends_same {a : ℕ × EndPt} (hi : a.1 < S.nl) :
    getEndStuff (m'.line (R.endOf a).1) (lineEnv S' m' (R.endOf a).1) (R.endOf a).2 =
      getEndStuff (m.line a.1) (lineEnv S m a.1) a.2 := by
  unfold Labels.endOf
  dsimp only
  cases hr : R.rev a.1
  · obtain ⟨h1, h2⟩ := env_straight hw h a.1 hr
    rw [h1, h2]
    rfl
  · have hl : Reversed (m.line a.1) (m'.line (R.line a.1)) := by
      have := h.line a.1
      rw [hr] at this
      exact this
    exact C100_ends_partial hl (env_turned hw h a.1 hr) (off h ho hi hr) a.2

omit hw h ho in
/-- The order of a list matters for the order of the results only. -/
theorem mapM_perm {α β : Type} (f : α → Option β) {l l' : List α} (hp : l.Perm l') :
    (l.mapM f = none ∧ l'.mapM f = none) ∨ ∃ x x', l.mapM f = some x ∧ l'.mapM f = some x' ∧ x.Perm x' := by
  induction hp with
  | nil => exact .inr ⟨[], [], rfl, rfl, .nil⟩
  | cons a _ ih =>
    simp only [List.mapM_cons]
    cases f a with
    | none => exact .inl ⟨rfl, rfl⟩
    | some b =>
      rcases ih with ⟨h1, h2⟩ | ⟨x, x', h1, h2, h3⟩
      · rw [h1, h2]
        exact .inl ⟨rfl, rfl⟩
      · rw [h1, h2]
        exact .inr ⟨b :: x, b :: x', rfl, rfl, h3.cons b⟩
  | swap a b l =>
    simp only [List.mapM_cons]
    cases f a with
    | none =>
      cases f b with
      | none => exact .inl ⟨rfl, rfl⟩
      | some y => exact .inl ⟨rfl, rfl⟩
    | some x =>
      cases f b with
      | none => exact .inl ⟨rfl, rfl⟩
      | some y =>
        cases l.mapM f with
        | none => exact .inl ⟨rfl, rfl⟩
        | some z => exact .inr ⟨_, _, rfl, rfl, .swap ..⟩
  | trans _ _ ih1 ih2 =>
    rcases ih1 with ⟨h1, h2⟩ | ⟨x, x', h1, h2, h3⟩
    · rcases ih2 with ⟨h4, h5⟩ | ⟨y, y', h4, h5, h6⟩
      · exact .inl ⟨h1, h5⟩
      · rw [h2] at h4
        cases h4
    · rcases ih2 with ⟨h4, h5⟩ | ⟨y, y', h4, h5, h6⟩
      · rw [h2] at h4
        cases h4
      · rw [h2] at h4
        cases h4
        exact .inr ⟨x, y', h1, h5, h3.trans h6⟩

omit hw h ho in
theorem loop_perm {l l' : List (V × V × M3 ℝ)} (hp : l.Perm l') (acc : V × M3 ℝ) :
    pointLoop l acc = pointLoop l' acc := by
  induction hp generalizing acc with
  | nil => rfl
  | cons a _ ih => exact ih _
  | swap a b l =>
    simp only [pointLoop]
    congr 1
    apply Prod.ext
    · show acc.1 + b.1 + a.1 = acc.1 + a.1 + b.1
      abel
    · show acc.2 + b.2.2 + a.2.2 = acc.2 + a.2.2 + b.2.2
      abel
  | trans _ _ ih1 ih2 => rw [ih1, ih2]

theorem loaded_same (hS : Sound S) (i : ℕ) :
    (loaded S m i = none ∧ loaded S' m' (R.point i) = none) ∨
    ∃ p p', loaded S m i = some p ∧ loaded S' m' (R.point i) = some p' ∧ p'.rd = p.rd ∧
      p'.doRHS S'.sea.rho_w S'.sea.g = p.doRHS S.sea.rho_w S.sea.g := by
  have e1 : ((S.att i).map R.endOf).mapM (fun a => getEndStuff (m'.line a.1) (lineEnv S' m' a.1) a.2) =
      (S.att i).mapM fun a => getEndStuff (m.line a.1) (lineEnv S m a.1) a.2 := by
    have : ∀ l : List (ℕ × EndPt), (∀ a ∈ l, a.1 < S.nl) →
        (l.map R.endOf).mapM (fun a => getEndStuff (m'.line a.1) (lineEnv S' m' a.1) a.2) =
          l.mapM fun a => getEndStuff (m.line a.1) (lineEnv S m a.1) a.2 := by
      intro l
      induction l with
      | nil => intro _; rfl
      | cons a l ih =>
        intro hl
        rw [List.map_cons, List.mapM_cons, List.mapM_cons, ends_same hw h ho (hl a List.mem_cons_self),
          ih fun b hb => hl b (List.mem_cons_of_mem _ hb)]
    exact this _ fun a ha => hS.line i a ha
  have e2 := mapM_perm (fun a => getEndStuff (m'.line a.1) (lineEnv S' m' a.1) a.2) (hw.att i)
  rw [e1] at e2
  unfold loaded
  rw [h.point, hw.kin, h.t, hw.sea]
  rcases e2 with ⟨h1, h2⟩ | ⟨x, x', h1, h2, h3⟩
  · rw [h1, h2]
    exact .inl ⟨rfl, rfl⟩
  · rw [h1, h2]
    refine .inr ⟨_, _, rfl, rfl, rfl, ?_⟩
    simp only [Point.doRHS, loop_perm h3]

theorem pointRate_same (hS : Sound S) (i : ℕ) : pointRate S' m' (R.point i) = pointRate S m i := by
  unfold pointRate
  rcases loaded_same hw h ho hS i with ⟨h1, h2⟩ | ⟨p, p', h1, h2, h3, h4⟩
  · rw [h1, h2, Option.map_none, Option.map_none]
  · rw [h1, h2]
    exact congrArg some (Prod.ext h3 (congrArg (fun x : V × M3 ℝ => x.2⁻¹ *ᵥ x.1) h4))

/-- C100 and C101: the forces given back for the coupled points. -/
theorem C101_returned (hS : Sound S) (i : ℕ) : reported S' m' (R.point i) = reported S m i := by
  unfold reported
  rcases loaded_same hw h ho hS i with ⟨h1, h2⟩ | ⟨p, p', h1, h2, h3, h4⟩
  · rw [h1, h2, Option.map_none, Option.map_none]
  · rw [h1, h2]
    exact congrArg some (congrArg (fun x : V × M3 ℝ => x.1) h4)

omit ho in
theorem asked_line (i j : ℕ) : asked S' m' (.inr (R.line i, j)) ↔ asked S m (.inr (i, j)) := by
  simp only [asked, hw.nl, hw.line, turned_N (h.line i)]

omit ho in
theorem asked_point (i : ℕ) : asked S' m' (.inl (R.point i)) ↔ asked S m (.inl i) := by
  simp only [asked, hw.np, hw.point, hw.kind]

omit h ho in
theorem asked_node {i j : ℕ} (hN : ∀ i, (m.line i).N = n i) : asked S m (.inr (i, nodeOf R n i j)) ∧ j ≤ n i ↔ asked S m (.inr (i, j)) := by
  simp only [asked, hN, nodeOf]
  split_ifs <;> constructor <;> intro h <;> (try refine ⟨⟨?_, ?_, ?_⟩, ?_⟩) <;> (try refine ⟨?_, ?_, ?_⟩) <;> omega

omit ho in
theorem edge_same : atEdge S' m' ↔ atEdge S m := by
  have key : ∀ i, (∃ j, j < (m'.line (R.line i)).N ∧
      ((m'.line (R.line i)).r j 2 = 1 / 2 * ((lineEnv S' m' (R.line i)).zeta j + (lineEnv S' m' (R.line i)).zeta (j + 1)) ∨
      (m'.line (R.line i)).r (j + 1) 2 =
        1 / 2 * ((lineEnv S' m' (R.line i)).zeta j + (lineEnv S' m' (R.line i)).zeta (j + 1)))) ↔
      ∃ j, j < (m.line i).N ∧
      ((m.line i).r j 2 = 1 / 2 * ((lineEnv S m i).zeta j + (lineEnv S m i).zeta (j + 1)) ∨
        (m.line i).r (j + 1) 2 = 1 / 2 * ((lineEnv S m i).zeta j + (lineEnv S m i).zeta (j + 1))) := by
    intro i
    cases hr : R.rev i
    · obtain ⟨h1, h2⟩ := env_straight hw h i hr
      rw [h1, h2]
    · have hl : Reversed (m.line i) (m'.line (R.line i)) := by
        have := h.line i
        rw [hr] at this
        exact this
      have hs := env_turned hw h i hr
      have seg : ∀ j, j < (m.line i).N →
          (((m'.line (R.line i)).r j 2 = 1 / 2 * ((lineEnv S' m' (R.line i)).zeta j + (lineEnv S' m' (R.line i)).zeta (j + 1)) ∨
          (m'.line (R.line i)).r (j + 1) 2 =
            1 / 2 * ((lineEnv S' m' (R.line i)).zeta j + (lineEnv S' m' (R.line i)).zeta (j + 1))) ↔
          ((m.line i).r ((m.line i).N - 1 - j) 2 = 1 / 2 * ((lineEnv S m i).zeta ((m.line i).N - 1 - j) +
            (lineEnv S m i).zeta ((m.line i).N - 1 - j + 1)) ∨
          (m.line i).r ((m.line i).N - 1 - j + 1) 2 = 1 / 2 * ((lineEnv S m i).zeta ((m.line i).N - 1 - j) +
            (lineEnv S m i).zeta ((m.line i).N - 1 - j + 1)))) := by
        intro j hj
        rw [(seg_r hl hj).1, (seg_r hl hj).2, hs.zeta j (by omega), hs.zeta (j + 1) (by omega),
          show (m.line i).N - j = (m.line i).N - 1 - j + 1 by omega,
          show (m.line i).N - (j + 1) = (m.line i).N - 1 - j by omega, add_comm ((lineEnv S m i).zeta _), or_comm]
      constructor
      · rintro ⟨j, hj, hc⟩
        rw [hl.N] at hj
        exact ⟨(m.line i).N - 1 - j, by omega, (seg j hj).1 hc⟩
      · rintro ⟨j, hj, hc⟩
        refine ⟨(m.line i).N - 1 - j, by rw [hl.N]; omega, (seg _ (by omega)).2 ?_⟩
        rw [show (m.line i).N - 1 - ((m.line i).N - 1 - j) = j by omega]
        exact hc
  unfold atEdge
  constructor
  · rintro ⟨i, j, hi, hc⟩
    obtain ⟨i, rfl⟩ := R.line.surjective i
    obtain ⟨j, hj⟩ := (key i).1 ⟨j, hc⟩
    exact ⟨i, j, (hw.line i).1 (hw.nl ▸ hi), hj⟩
  · rintro ⟨i, j, hi, hc⟩
    obtain ⟨j, hj⟩ := (key i).2 ⟨j, hc⟩
    exact ⟨R.line i, j, hw.nl ▸ (hw.line i).2 hi, hj⟩

open Classical in
theorem rate_same (hS : Sound S) : (eval S' m').1 = lin R n (eval S m).1 := by
  apply Prod.ext
  · funext k j
    obtain ⟨i, rfl⟩ := R.line.surjective k
    rw [lin_line]
    show (if asked S' m' (.inr (R.line i, j + 1)) then (nodeRate S' m' (R.line i) (j + 1)).getD 0 else 0) =
      if asked S m (.inr (i, inner (R.rev i) (n i) j + 1)) then (nodeRate S m i (inner (R.rev i) (n i) j + 1)).getD 0 else 0
    have hN := h.N i
    by_cases ha : asked S m (.inr (i, j + 1))
    · have ha' := ha
      obtain ⟨hi, h1, h2⟩ := ha'
      have e : inner (R.rev i) (n i) j + 1 = nodeOf R n i (j + 1) := by
        unfold inner nodeOf
        cases R.rev i
        · simp
        · rw [if_pos ⟨rfl, by omega⟩, if_pos rfl]
          omega
      rw [if_pos ((asked_line hw h i _).2 ha), e, if_pos ((asked_node hw h.N).2 ha).1, nodeRate_same hw h ho hi (by omega)]
    · rw [if_neg (fun hc => ha ((asked_line hw h i _).1 hc)), if_neg]
      intro hc
      apply ha
      obtain ⟨hi, h1, h2⟩ := hc
      refine ⟨hi, by omega, ?_⟩
      unfold inner at h2
      split_ifs at h2 <;> omega
  · funext k
    obtain ⟨i, rfl⟩ := R.point.surjective k
    rw [lin_point]
    show (if asked S' m' (.inl (R.point i)) then (pointRate S' m' (R.point i)).getD 0 else 0) =
      if asked S m (.inl i) then (pointRate S m i).getD 0 else 0
    rw [pointRate_same hw h ho hS, if_congr (asked_point hw h i) rfl rfl]

theorem eval_same (hS : Sound S) : SameMem R n (eval S m).2 (eval S' m').2 := by
  refine ⟨h.t, h.N, h.pos, h.thick, h.line, h.point, h.ves, ?_, ?_⟩
  · have e1 : (∃ i j, asked S' m' (.inr (i, j)) ∧ nodeRate S' m' i j = none) ↔
        ∃ i j, asked S m (.inr (i, j)) ∧ nodeRate S m i j = none := by
      constructor
      · rintro ⟨k, j, ha, hn⟩
        obtain ⟨i, rfl⟩ := R.line.surjective k
        rw [asked_line hw h] at ha
        obtain ⟨hb, hj⟩ := (asked_node hw h.N).2 ha
        refine ⟨i, _, hb, ?_⟩
        rw [← nodeRate_same hw h ho ha.1 hj]
        exact hn
      · rintro ⟨i, j, ha, hn⟩
        have hN := h.N i
        have ha' := ha
        obtain ⟨hi, h1, h2⟩ := ha'
        have e : nodeOf R n i (nodeOf R n i j) = j := by
          unfold nodeOf
          cases R.rev i
          · rfl
          · show n i - (n i - j) = j
            omega
        obtain ⟨hb, hj⟩ := (asked_node hw h.N).2 ha
        have hj' : nodeOf R n i j ≤ n i := by
          obtain ⟨_, _, h3⟩ := hb
          omega
        refine ⟨R.line i, nodeOf R n i j, (asked_line hw h i _).2 hb, ?_⟩
        rw [nodeRate_same hw h ho hi hj', e]
        exact hn
    have e2 : (∃ i, asked S' m' (.inl i) ∧ pointRate S' m' i = none) ↔ ∃ i, asked S m (.inl i) ∧ pointRate S m i = none := by
      constructor
      · rintro ⟨k, ha, hn⟩
        obtain ⟨i, rfl⟩ := R.point.surjective k
        exact ⟨i, (asked_point hw h i).1 ha, by rw [← pointRate_same hw h ho hS]; exact hn⟩
      · rintro ⟨i, ha, hn⟩
        exact ⟨R.point i, (asked_point hw h i).2 ha, by rw [pointRate_same hw h ho hS]; exact hn⟩
    simp only [eval, h.bad, e1, e2]
  · simp only [eval, h.edge, edge_same hw h]

end

/-- The two systems do the same. -/
theorem machine_same {S S' : System} (hw : SameWorld R S S') (hS : Sound S) (n : ℕ → ℕ) :
    AlikeIf (Fine R) (machine S) (machine S') (lin R n) 0 (SameMem R n) where
  update t tl e m m' h := by
    rw [add_zero]
    exact update_same hw hS t tl e h
  rate m m' h ho := rate_same hw h ho hS
  eval m m' h ho := eval_same hw h ho hS
  next m m' h := h
  okU t tl e m := by
    have : (update S t tl e m).edge = m.edge := by
      unfold update
      dsimp only
      have : ∀ ms : List (ℕ × V × V), ∀ m : Mem, (ms.foldl (fun m a => move S a.1 a.2.1 a.2.2 m) m).edge = m.edge := by
        intro ms
        induction ms with
        | nil => intro m; rfl
        | cons a ms ih => intro m; rw [List.foldl_cons, ih]; rfl
      rw [folds_eq, this]
    rintro (h | h)
    · exact .inl h
    · right
      change ¬ (update S t tl e m).edge at h
      rw [this] at h
      exact h
  okE m := by
    rintro (h | h)
    · exact .inl h
    · exact .inr fun hc => h (.inl hc)
  okN m h := h

/-! ## What the schemes do besides -/

theorem sum_labels (σ : ℕ ≃ ℕ) (k : ℕ) (hk : ∀ i, σ i < k ↔ i < k) (f : ℕ → ℝ) :
    ∑ i ∈ Finset.range k, f i = ∑ i ∈ Finset.range k, f (σ i) := by
  symm
  apply Finset.sum_equiv σ
  · intro i
    rw [Finset.mem_range, Finset.mem_range, hk]
  · intro i _
    rfl

theorem sum_labels_nat (σ : ℕ ≃ ℕ) (k : ℕ) (hk : ∀ i, σ i < k ↔ i < k) (f : ℕ → ℕ) :
    ∑ i ∈ Finset.range k, f i = ∑ i ∈ Finset.range k, f (σ i) := by
  symm
  apply Finset.sum_equiv σ
  · intro i
    rw [Finset.mem_range, Finset.mem_range, hk]
  · intro i _
    rfl

theorem residues_same {S S' : System} (hw : SameWorld R S S') {n n' : ℕ → ℕ} (hn : ∀ i, n' (R.line i) = n i)
    (g : State × State) : residues S' n' (lin R n g.1, lin R n g.2) = residues S n g := by
  unfold residues
  rw [hw.nl, hw.np, sum_labels R.line S.nl hw.line, sum_labels R.point S.np hw.point]
  congr 1
  · apply Finset.sum_congr rfl
    intro i _
    simp only [lin_line, hn]
    cases hr : R.rev i
    · simp [inner]
    · rw [← Finset.sum_range_reflect]
      apply Finset.sum_congr rfl
      intro j hj
      have hj := Finset.mem_range.1 hj
      have e : inner true (n i) j = n i - 1 - 1 - j := by
        unfold inner
        rw [if_pos ⟨rfl, by omega⟩]
        omega
      have e' : inner true (n i) (n i - 1 - 1 - j) = j := by
        unfold inner
        rw [if_pos ⟨rfl, by omega⟩]
        omega
      rw [e']
  · simp only [lin_point]

theorem ndof_same {S S' : System} (hw : SameWorld R S S') {n n' : ℕ → ℕ} (hn : ∀ i, n' (R.line i) = n i) :
    ndof S' n' = ndof S n := by
  unfold ndof
  rw [hw.nl, hw.np, sum_labels_nat R.line S.nl hw.line]
  simp only [hn]

/-- Anderson's iteration ends at the same time. -/
theorem converged_same {S S' : System} (hw : SameWorld R S S') {n n' : ℕ → ℕ} (hn : ∀ i, n' (R.line i) = n i)
    (tol rel : ℝ) (a b : State × State) :
    converged S' n' tol rel (lin R n a.1, lin R n a.2) (lin R n b.1, lin R n b.2) = converged S n tol rel a b := by
  unfold converged
  simp only [residues_same hw hn, ndof_same hw hn]

theorem aux_same {n : ℕ → ℕ} (relax : ℕ → ℕ → ℝ) (conv conv' : State × State → State × State → Bool)
    {fresh fresh' : ℕ ⊕ ℕ → Bool} (hl : ∀ i, fresh' (.inl (R.line i)) = fresh (.inl i))
    (hp : ∀ i, fresh' (.inr (R.point i)) = fresh (.inr i)) :
    AuxAlike (auxOf relax conv fresh) (auxOf relax conv' fresh') (lin R n) 0 := by
  refine ⟨fun _ _ => rfl, fun _ _ _ _ _ => rfl, fun _ _ _ _ => rfl, ?_, ?_⟩
  · intro a b
    apply Prod.ext
    · funext k j
      obtain ⟨i, rfl⟩ := R.line.surjective k
      rw [lin_line]
      simp only [auxOf, hl]
      split_ifs
      · exact lin_line ..
      · exact lin_line ..
    · funext k
      obtain ⟨i, rfl⟩ := R.point.surjective k
      rw [lin_point]
      simp only [auxOf, hp]
      split_ifs
      · exact lin_point ..
      · exact lin_point ..
  · intro a b
    simp only [auxOf, map_sub, add_zero]

/-! ## Whole simulations -/

variable (R) in
/-- What the caller has to do: give the motion of each coupled point under its new number. -/
def newCall (x : (ℕ → V × V) × ℝ) : (ℕ → V × V) × ℝ := (fun k => x.1 (R.point.symm k), x.2)

variable (R) in
/-- The relation of two simulations. -/
abbrev Together (n : ℕ → ℕ) (s s' : Sim ℝ State Mem) : Prop := Same (lin R n) 0 (SameMem R n) (· = 0) s s'

theorem calls_ok {S S' : System} (hw : SameWorld R S S') (hS : Sound S) (n : ℕ → ℕ) (ax : Aux ℝ State) (sc : Scheme ℝ)
    (dtM0 : ℝ) (fuel : ℕ) (calls : List ((ℕ → V × V) × ℝ)) (a e : Sim ℝ State Mem)
    (he : calls.foldlM (call S ax sc dtM0 fuel) a = some e) (ho : Fine R e.m) : Fine R a.m := by
  induction calls generalizing a with
  | nil =>
    simp only [List.foldlM_nil, Option.pure_def, Option.some.injEq] at he
    exact he ▸ ho
  | cons y calls ih =>
    rw [List.foldlM_cons] at he
    cases hc : call S ax sc dtM0 fuel a y with
    | none =>
      rw [hc] at he
      cases he
    | some c =>
      rw [hc] at he
      have hcf := ih c he
      unfold call at hc
      split at hc
      · rename_i b hs hb
        cases hc
        have := call_ok (machine_same hw hS n) ax sc dtM0 fuel y.2 _ _ _ hb hcf
        exact this
      · cases hc

/-- Whole simulations, with all schemes. -/
theorem simulation {S S' : System} (hw : SameWorld R S S') (hS : Sound S) {n n' : ℕ → ℕ}
    (hn : ∀ i, n' (R.line i) = n i) (relax : ℕ → ℕ → ℝ) (tol rel : ℝ) {fresh fresh' : ℕ ⊕ ℕ → Bool}
    (hl : ∀ i, fresh' (.inl (R.line i)) = fresh (.inl i)) (hp : ∀ i, fresh' (.inr (R.point i)) = fresh (.inr i))
    (sc : Scheme ℝ) (dtM0 : ℝ) (fuel : ℕ) (calls : List ((ℕ → V × V) × ℝ)) (s s' : Sim ℝ State Mem)
    (h : Together R n s s') (e : Sim ℝ State Mem)
    (he : calls.foldlM (call S (auxOf relax (converged S n tol rel) fresh) sc dtM0 fuel) s = some e)
    (ho : Fine R e.m) :
    ∃ e', (calls.map (newCall R)).foldlM
        (call S' (auxOf relax (converged S' n' tol rel) fresh') sc dtM0 fuel) s' = some e' ∧ Together R n e e' := by
  induction calls generalizing s s' with
  | nil =>
    simp only [List.foldlM_nil, Option.pure_def, Option.some.injEq] at he
    subst he
    exact ⟨s', rfl, h⟩
  | cons x calls ih =>
    rw [List.foldlM_cons] at he
    rw [List.map_cons, List.foldlM_cons]
    have h1 : Together R n { s with m := initiate S x.1 s.m } { s' with m := initiate S' (newCall R x).1 s'.m } := by
      refine ⟨h.t, h.tl, h.n, h.r, h.rd, h.m.t, h.m.N, h.m.pos, h.m.thick, h.m.line, h.m.point, ?_, h.m.bad, h.m.edge⟩
      intro i
      simp only [initiate, hw.kind, newCall, Equiv.symm_apply_apply]
      split_ifs
      · rfl
      · exact h.m.ves i
    cases hc : call S (auxOf relax (converged S n tol rel) fresh) sc dtM0 fuel s x with
    | none =>
      rw [hc] at he
      cases he
    | some a =>
      rw [hc] at he
      have hf := calls_ok hw hS n _ sc dtM0 fuel calls a e he ho
      unfold call at hc
      split at hc
      · rename_i b hs hb
        cases hc
        obtain ⟨_, b', hb', hsame⟩ := same_call (machine_same hw hS n)
          (aux_same relax (converged S n tol rel) (converged S' n' tol rel) hl hp) sc
          (.inr fun a b => converged_same hw hn tol rel a b) dtM0 fuel x.2 h1 _ _ hb hf
        have hc' : call S' (auxOf relax (converged S' n' tol rel) fresh') sc dtM0 fuel s' (newCall R x) = some b' := by
          unfold call
          have : (newCall R x).2 = x.2 := rfl
          rw [this, hb']
        rw [hc']
        exact ih _ _ hsame he
      · cases hc

/-! ## The same simulation with other numbers -/

variable (R) in
/-- The system described in another order, with some lines turned. -/
def world (S : System) : System :=
  { S with
    kind := fun k => S.kind (R.point.symm k)
    att := fun k => (S.att (R.point.symm k)).map R.endOf }

variable (R) in
/-- The lines and points of a moment under their new numbers. -/
def moment (m : Mem) : Mem :=
  { m with
    line := fun k => if R.rev (R.line.symm k) then reverse (m.line (R.line.symm k)) else m.line (R.line.symm k)
    point := fun k => m.point (R.point.symm k)
    ves := fun k => m.ves (R.point.symm k) }

variable (R) in
/-- The whole simulation. -/
def renamed (n : ℕ → ℕ) (s : Sim ℝ State Mem) : Sim ℝ State Mem :=
  { s with r := fun k => lin R n (s.r k), rd := fun k => lin R n (s.rd k), m := moment R s.m }

theorem world_same (S : System) (hl : ∀ i, R.line i < S.nl ↔ i < S.nl) (hp : ∀ i, R.point i < S.np ↔ i < S.np) :
    SameWorld R S (world R S) := by
  refine ⟨rfl, rfl, hl, hp, fun i => ?_, fun i => ?_, rfl, rfl⟩
  · simp [world]
  · simp [world]

theorem renamed_together (s : Sim ℝ State Mem) (hN : ∀ i, 1 ≤ (s.m.line i).N) (hd : ∀ i, 0 ≤ (s.m.line i).d) :
    Together R (fun i => (s.m.line i).N) s (renamed R (fun i => (s.m.line i).N) s) := by
  refine ⟨rfl, rfl, rfl, fun k _ => (add_zero _).symm, fun _ => rfl, rfl, fun _ => rfl, hN, hd, fun i => ?_, fun i => ?_, fun i => ?_,
    Iff.rfl, Iff.rfl⟩
  · simp only [renamed, moment, Equiv.symm_apply_apply, Turned]
    split_ifs
    · exact (C100_exists (s.m.line i) (hN i) ⟨0, 0, 0, 0, 0, 0, 0, fun _ _ => 0, fun _ => 0, fun _ => 0, fun _ => 0, fun _ => 0⟩).1
    · rfl
  · simp [renamed, moment]
  · simp [renamed, moment]

/-- Other numbers only. -/
def order (σ π : ℕ ≃ ℕ) : Labels := ⟨σ, π, fun _ => false⟩

/-- Other directions only. -/
def turn (rev : ℕ → Bool) : Labels := ⟨.refl ℕ, .refl ℕ, rev⟩

/-- C101: the order in which lines and points are described, and in which the lines of a point are listed, does not
matter.  For every simulation of a system, with every scheme and all motions of the coupled points, the
simulation of every system that describes the same objects in another order (`S'`) goes through the same states. -/
theorem C101_simulation (σ π : ℕ ≃ ℕ) {S S' : System} (hw : SameWorld (order σ π) S S') (hS : Sound S)
    (relax : ℕ → ℕ → ℝ) (tol rel : ℝ) (fresh : ℕ ⊕ ℕ → Bool) (sc : Scheme ℝ) (dtM0 : ℝ) (fuel : ℕ)
    (calls : List ((ℕ → V × V) × ℝ)) (s : Sim ℝ State Mem) (hN : ∀ i, 1 ≤ (s.m.line i).N)
    (hd : ∀ i, 0 ≤ (s.m.line i).d) (e : Sim ℝ State Mem)
    (he : calls.foldlM (call S (auxOf relax (converged S (fun i => (s.m.line i).N) tol rel) fresh) sc dtM0 fuel) s = some e) :
    ∃ e', (calls.map fun x => (fun k => x.1 (π.symm k), x.2)).foldlM
        (call S' (auxOf relax (converged S' (fun k => (s.m.line (σ.symm k)).N) tol rel)
          (Sum.elim (fun k => fresh (.inl (σ.symm k))) fun k => fresh (.inr (π.symm k)))) sc dtM0 fuel)
        (renamed (order σ π) (fun i => (s.m.line i).N) s) = some e' ∧
      e'.t = e.t ∧ (∀ i, (e'.r 0).1 (σ i) = (e.r 0).1 i) ∧ (∀ i, (e'.r 0).2 (π i) = (e.r 0).2 i) ∧
      (∀ i, e'.m.line (σ i) = e.m.line i) ∧ (∀ i, e'.m.point (π i) = e.m.point i) ∧ (e'.m.bad ↔ e.m.bad) := by
  obtain ⟨e', h1, h2⟩ := simulation (R := order σ π) hw hS (n' := fun k => (s.m.line (σ.symm k)).N)
    (fun i => by simp [order]) relax tol rel
    (fresh' := Sum.elim (fun k => fresh (.inl (σ.symm k))) fun k => fresh (.inr (π.symm k))) (by simp [order]) (by simp [order])
    sc dtM0 fuel calls s _ (renamed_together s hN hd) e he (.inl fun _ => rfl)
  refine ⟨e', h1, h2.t, fun i => ?_, fun i => ?_, h2.m.line, h2.m.point, h2.m.bad⟩
  · funext j
    rw [h2.r 0 rfl, add_zero]
    exact lin_line (R := order σ π) _ _ i j
  · rw [h2.r 0 rfl, add_zero]
    exact lin_point (R := order σ π) _ _ i

/-- C100, whole simulations: lines whose ends A and B have been exchanged move as before, seen from the other
end.  Partial: as long as no end of a segment has been exactly as high as the water over the segment. -/
theorem C100_simulation_partial (rev : ℕ → Bool) {S S' : System} (hw : SameWorld (turn rev) S S') (hS : Sound S)
    (relax : ℕ → ℕ → ℝ) (tol rel : ℝ) (fresh : ℕ ⊕ ℕ → Bool) (sc : Scheme ℝ) (dtM0 : ℝ) (fuel : ℕ)
    (calls : List ((ℕ → V × V) × ℝ)) (s : Sim ℝ State Mem) (hN : ∀ i, 1 ≤ (s.m.line i).N)
    (hd : ∀ i, 0 ≤ (s.m.line i).d) (e : Sim ℝ State Mem)
    (he : calls.foldlM (call S (auxOf relax (converged S (fun i => (s.m.line i).N) tol rel) fresh) sc dtM0 fuel) s = some e)
    (ho : ¬ e.m.edge) :
    ∃ e', calls.foldlM (call S' (auxOf relax (converged S' (fun i => (s.m.line i).N) tol rel) fresh) sc dtM0 fuel)
        (renamed (turn rev) (fun i => (s.m.line i).N) s) = some e' ∧
      e'.t = e.t ∧ (∀ i, (e'.r 0).2 i = (e.r 0).2 i) ∧ (∀ i, e'.m.point i = e.m.point i) ∧ (e'.m.bad ↔ e.m.bad) ∧
      (∀ i, rev i = false → e'.m.line i = e.m.line i) ∧ ∀ i, rev i = true → Reversed (e.m.line i) (e'.m.line i) := by
  obtain ⟨e', h1, h2⟩ := simulation (R := turn rev) hw hS (n' := fun i => (s.m.line i).N) (fun i => rfl) relax tol rel
    (fresh' := fresh) (fun _ => rfl) (fun _ => rfl) sc dtM0 fuel calls s _ (renamed_together s hN hd) e he (.inr ho)
  refine ⟨e', ?_, h2.t, fun i => ?_, h2.m.point, h2.m.bad, fun i hi => ?_, fun i hi => ?_⟩
  · have : newCall (turn rev) = id := rfl
    rw [this, List.map_id] at h1
    exact h1
  · rw [h2.r 0 rfl, add_zero]
    exact lin_point (R := turn rev) _ _ i
  · have := h2.m.line i
    change Turned (rev i) _ _ at this
    rw [hi] at this
    exact this
  · have := h2.m.line i
    change Turned (rev i) _ _ at this
    rw [hi] at this
    exact this

/-- Every system can be described in every order. -/
theorem C101_world (σ π : ℕ ≃ ℕ) (S : System) (hl : ∀ i, σ i < S.nl ↔ i < S.nl) (hp : ∀ i, π i < S.np ↔ i < S.np) :
    SameWorld (order σ π) S (world (order σ π) S) := world_same S hl hp

/-- Every system can be described with any lines turned: only the ends at the points are called differently. -/
theorem C100_world (rev : ℕ → Bool) (S : System) : SameWorld (turn rev) S (world (turn rev) S) :=
  world_same S (fun _ => Iff.rfl) fun _ => Iff.rfl

/-- Two lines that meet in a free point, one anchored, one hanging from a coupled point. -/
noncomputable def two : System where
  nl := 2
  np := 3
  kind i := if i = 0 then .FIXED else if i = 1 then .COUPLED else .FREE
  att i := if i = 0 then [(0, .BOTTOM)] else if i = 1 then [(1, .TOP)] else if i = 2 then [(0, .TOP), (1, .BOTTOM)] else []
  sea := still
  kin _ _ := (0, 0, 0, 0)

/-- The same, the lines and points in another order, and the lines of the free point listed in the other order. -/
noncomputable def two' : System where
  nl := 2
  np := 3
  kind i := if i = 2 then .FIXED else if i = 1 then .COUPLED else .FREE
  att i := if i = 2 then [(1, .BOTTOM)] else if i = 1 then [(0, .TOP)] else if i = 0 then [(0, .BOTTOM), (1, .TOP)] else []
  sea := still
  kin _ _ := (0, 0, 0, 0)

theorem two_sound : Sound two := by
  constructor
  · intro i j a hi hj
    simp only [two] at hi hj
    split_ifs at hi hj <;> simp_all
  · intro i a hi
    simp only [two] at hi
    split_ifs at hi <;> simp_all [two]
    rcases hi with rfl | rfl <;> simp

example : SameWorld (order (Equiv.swap 0 1) (Equiv.swap 0 2)) two two' := by
  have hs : ∀ a b k i : ℕ, a < k → b < k → (Equiv.swap a b i < k ↔ i < k) := by
    intro a b k i ha hb
    rw [Equiv.swap_apply_def]
    split_ifs <;> omega
  refine ⟨rfl, rfl, fun i => hs 0 1 2 i (by omega) (by omega), fun i => hs 0 2 3 i (by omega) (by omega), ?_, ?_, rfl, rfl⟩
  · intro i
    simp only [order, two, two', Equiv.swap_apply_def]
    split_ifs <;> first | rfl | omega
  · intro i
    match i with
    | 0 => simp [order, two, two', Labels.endOf, flip]
    | 1 => simp [order, two, two', Labels.endOf, flip, Equiv.swap_apply_def]
    | 2 =>
      simp only [order, two, two', Labels.endOf, flip, Equiv.swap_apply_def]
      exact List.Perm.swap _ _ _
    | i + 3 => simp [order, two, two', Equiv.swap_apply_def]

end MD.Relabel
