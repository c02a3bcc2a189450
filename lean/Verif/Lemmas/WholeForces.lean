import Verif.Spec.Now
import Verif.Lemmas.WholeLoad

/-!
# What an evaluation writes
-/

set_option linter.unusedSimpArgs false
set_option linter.unusedSectionVars false
set_option linter.unusedVariables false
set_option linter.unnecessarySeqFocus false

namespace MD.Whole

open MD.Mooring Matrix
open MD.Moored (Kind)

variable {Q FL FP FR FB Wt : Type} {S : System Q FL FP FR FB Wt}

theorem straight_eq (N : ℕ) (x : ℕ → V) : straight N x = spaced N x := by
  funext j
  unfold straight spaced
  rcases Nat.eq_zero_or_pos j with rfl | hj
  · by_cases h : 0 < N <;> simp [h]
  · by_cases h : j < N
    · simp [h, Nat.one_le_iff_ne_zero.mpr hj.ne']
    · simp [h]

theorem straight_zero (N : ℕ) (x : ℕ → V) : straight N x 0 = x 0 := by simp [straight]

theorem straight_end (N : ℕ) (x : ℕ → V) : straight N x N = x N := by simp [straight]

theorem straight_straight (N : ℕ) (x : ℕ → V) : straight N (straight N x) = straight N x := by
  funext j
  by_cases h : 1 ≤ j ∧ j < N
  · unfold straight
    simp [h]
  · show (if 1 ≤ j ∧ j < N then _ else straight N x j) = _
    rw [if_neg h]

/-- In the middle of an evaluation that began with `o`: nothing has moved, and the forces on the points `P`, the rods `R` and the
bodies `B` are there. -/
structure Mid (S : System Q FL FP FR FB Wt) (o : Mem Q FL FP FR FB) (P R B : ℕ → Prop) (m : Mem Q FL FP FR FB) : Prop where
  t : m.t = o.t
  shape : ∀ k, (m.line k).s = (o.line k).s
  force : ∀ h : Holder, ∀ a ∈ h.list S, (m.line a.1).F = lineNow S o a.1
  force' : ∀ k < S.nl, (m.line k).F = lineNow S o k
  point : ∀ i, (m.point i).r = (o.point i).r ∧ (m.point i).rd = (o.point i).rd
  rod : ∀ i, (m.rod i).pos = (o.rod i).pos ∧ (m.rod i).quat = (o.rod i).quat ∧ (m.rod i).vel = (o.rod i).vel ∧
    (m.rod i).w = (o.rod i).w ∧ (m.rod i).q = (o.rod i).q ∧ straight (S.rodN i) (m.rod i).r = straight (S.rodN i) (o.rod i).r ∧
    straight (S.rodN i) (m.rod i).rd = straight (S.rodN i) (o.rod i).rd
  body : ∀ b, (m.body b).pos = (o.body b).pos ∧ (m.body b).quat = (o.body b).quat ∧ (m.body b).vel = (o.body b).vel ∧
    (m.body b).w = (o.body b).w ∧ (m.body b).orMat = (o.body b).orMat
  ground : m.ground = o.ground
  P : ∀ i, P i → (m.point i).F = pointNow S o i
  R : ∀ i, R i → (m.rod i).F = rodNow S o (o.rod i).r i ∧ (m.rod i).r = straight (S.rodN i) (o.rod i).r ∧
    (m.rod i).rd = straight (S.rodN i) (o.rod i).rd
  B : ∀ b, B b → (m.body b).F = bodyNow S o (fun i => (o.rod i).r) b

variable {o m : Mem Q FL FP FR FB} {P R B : ℕ → Prop}

theorem Mid.weak {P' R' B' : ℕ → Prop} (h : Mid S o P R B m) (hP : ∀ i, P' i → P i) (hR : ∀ i, R' i → R i) (hB : ∀ i, B' i → B i) :
    Mid S o P' R' B' m :=
  ⟨h.t, h.shape, h.force, h.force', h.point, h.rod, h.body, h.ground, fun i hi => h.P i (hP i hi), fun i hi => h.R i (hR i hi),
    fun i hi => h.B i (hB i hi)⟩

theorem Mid.given (h : Mid S o P R B m) (H : Holder) : given m.line (H.list S) = pullNow S o (H.list S) := by
  unfold Whole.given pullNow
  refine List.map_congr_left fun a ha => ?_
  rw [h.force H a ha]

theorem Mid.rhsPoint (h : Mid S o P R B m) (i : ℕ) : Mid S o (fun j => P j ∨ j = i) R B (rhsPoint S i m) := by
  have hF : S.pointF i (m.point i).r (m.point i).rd (S.sea m.t (m.point i).r) (Whole.given m.line (S.ends i)) = pointNow S o i := by
    rw [show Whole.given m.line (S.ends i) = pullNow S o (S.ends i) from h.given (.point i), (h.point i).1, (h.point i).2, h.t]
    rfl
  refine { h with point := fun j => ?_, P := fun j hj => ?_ }
  · by_cases hji : j = i
    · subst hji
      simpa [Whole.rhsPoint] using h.point j
    · simpa [Whole.rhsPoint, Function.update_of_ne hji] using h.point j
  · by_cases hji : j = i
    · subst hji
      simp only [Whole.rhsPoint, Function.update_self]
      exact hF
    · simp only [Whole.rhsPoint, Function.update_of_ne hji]
      exact h.P j (hj.resolve_right hji)

theorem Mid.rhsRod (h : Mid S o P R B m) (i : ℕ) : Mid S o P (fun j => R j ∨ j = i) B (rhsRod S (rodWater S o) i m) := by
  obtain ⟨h1, h2, h3, h4, h5, h6, h7⟩ := h.rod i
  have hF : S.rodF i (m.rod i).quat (m.rod i).w (m.rod i).q (straight (S.rodN i) (m.rod i).r) (straight (S.rodN i) (m.rod i).rd)
      (rodWater S o i) (Whole.given m.line (S.endsA i)) (Whole.given m.line (S.endsB i)) = rodNow S o (o.rod i).r i := by
    rw [show Whole.given m.line (S.endsA i) = pullNow S o (S.endsA i) from h.given (.rodA i),
      show Whole.given m.line (S.endsB i) = pullNow S o (S.endsB i) from h.given (.rodB i), h2, h4, h5, h6, h7, straight_eq, straight_eq]
    rfl
  refine { h with rod := fun j => ?_, R := fun j hj => ?_ }
  · by_cases hji : j = i
    · subst hji
      simp only [Whole.rhsRod, Function.update_self, straight_straight]
      exact h.rod j
    · simpa [Whole.rhsRod, Function.update_of_ne hji] using h.rod j
  · by_cases hji : j = i
    · subst hji
      simp only [Whole.rhsRod, Function.update_self]
      exact ⟨hF, h6, h7⟩
    · simp only [Whole.rhsRod, Function.update_of_ne hji]
      exact h.R j (hj.resolve_right hji)

theorem Mid.acc (h : Mid S o P R B m) (i : ℕ) (g : V × V → V × V) : Mid S o P R B (setRod i (fun r => { r with acc := g r.acc }) m) := by
  refine { h with rod := fun j => ?_, R := fun j hj => ?_ }
  · by_cases hji : j = i
    · subst hji
      simpa [setRod] using h.rod j
    · simpa [setRod, Function.update_of_ne hji] using h.rod j
  · by_cases hji : j = i
    · subst hji
      simpa [setRod] using h.R j hj
    · simpa [setRod, Function.update_of_ne hji] using h.R j hj

theorem Mid.foldl {α : Type} (F : Mem Q FL FP FR FB → α → Mem Q FL FP FR FB) (p r b : α → ℕ → Prop) (l : List α)
    (hF : ∀ m, ∀ a ∈ l, ∀ P R B, Mid S o P R B m → Mid S o (fun j => P j ∨ p a j) (fun j => R j ∨ r a j) (fun j => B j ∨ b a j) (F m a))
    (h : Mid S o P R B m) :
    Mid S o (fun j => P j ∨ ∃ a ∈ l, p a j) (fun j => R j ∨ ∃ a ∈ l, r a j) (fun j => B j ∨ ∃ a ∈ l, b a j) (l.foldl F m) := by
  induction l generalizing m P R B with
  | nil => exact h.weak (by simp) (by simp) (by simp)
  | cons a l ih =>
    rw [List.foldl_cons]
    refine (ih (fun m a ha => hF m a (List.mem_cons_of_mem _ ha)) (hF m a List.mem_cons_self P R B h)).weak ?_ ?_ ?_ <;>
    · intro j hj
      simp only [List.mem_cons, exists_eq_or_imp] at hj
      rw [or_assoc]
      exact hj

theorem Mid.rhsBody (h : Mid S o P R B m) (b : ℕ) :
    Mid S o (fun j => P j ∨ ∃ rel, (j, rel) ∈ S.pts (some b)) (fun j => R j ∨ ∃ rel, (j, rel) ∈ S.rods (some b)) (fun c => B c ∨ c = b)
      (rhsBody S (rodWater S o) b m) := by
  have h1 := Mid.foldl (fun m a => Whole.rhsPoint S a.1 m) (fun a j => j = a.1) (fun _ _ => False) (fun _ _ => False) (S.pts (some b))
    (fun m a _ P R B h => (h.rhsPoint a.1).weak (fun _ h => h) (by simp) (by simp)) h
  have h2 := Mid.foldl (fun m a => Whole.rhsRod S (rodWater S o) a.1 m) (fun _ _ => False) (fun a j => j = a.1) (fun _ _ => False)
    (S.rods (some b)) (fun m a _ P R B h => (h.rhsRod a.1).weak (by simp) (fun _ h => h) (by simp)) h1
  have h3 : Mid S o (fun j => P j ∨ ∃ rel, (j, rel) ∈ S.pts (some b)) (fun j => R j ∨ ∃ rel, (j, rel) ∈ S.rods (some b)) B
      ((S.rods (some b)).foldl (fun m a => Whole.rhsRod S (rodWater S o) a.1 m)
        ((S.pts (some b)).foldl (fun m a => Whole.rhsPoint S a.1 m) m)) := by
    refine h2.weak ?_ ?_ ?_
    · rintro j (hj | ⟨rel, hj⟩)
      · exact .inl (.inl hj)
      · exact .inl (.inr ⟨_, hj, rfl⟩)
    · rintro j (hj | ⟨rel, hj⟩)
      · exact .inl (.inl hj)
      · exact .inr ⟨_, hj, rfl⟩
    · exact fun j hj => .inl (.inl hj)
  unfold Whole.rhsBody
  dsimp only
  generalize (S.rods (some b)).foldl (fun m a => Whole.rhsRod S (rodWater S o) a.1 m) _ = m' at h3
  obtain ⟨b1, b2, b3, b4, b5⟩ := h3.body b
  have e1 : ((S.pts (some b)).map fun a => ((m'.point a.1).r, (m'.point a.1).F)) =
      (S.pts (some b)).map fun a => ((o.point a.1).r, pointNow S o a.1) :=
    List.map_congr_left fun a ha => by rw [(h3.point a.1).1, h3.P a.1 (.inr ⟨a.2, ha⟩)]
  have e2 : ((S.rods (some b)).map fun a => ((m'.rod a.1).pos, (m'.rod a.1).vel, (m'.rod a.1).F)) =
      (S.rods (some b)).map fun a => ((o.rod a.1).pos, (o.rod a.1).vel, rodNow S o (o.rod a.1).r a.1) :=
    List.map_congr_left fun a ha => by rw [(h3.rod a.1).1, (h3.rod a.1).2.2.1, (h3.R a.1 (.inr ⟨a.2, ha⟩)).1]
  refine { h3 with body := fun c => ?_, B := fun c hc => ?_ }
  · by_cases hcb : c = b
    · subst hcb
      simpa using h3.body c
    · simpa [Function.update_of_ne hcb] using h3.body c
  · by_cases hcb : c = b
    · subst hcb
      simp only [Function.update_self]
      rw [e1, e2, b1, b2, b3, b4, b5, h3.t]
      rfl
    · simp only [Function.update_of_ne hcb]
      exact h3.B c (hc.resolve_right hcb)

/-- What an evaluation has written before the ground is told again where it is. -/
noncomputable def forces (S : System Q FL FP FR FB Wt) (m : Mem Q FL FP FR FB) : Mem Q FL FP FR FB :=
  let wt := rodWater S m
  let m := evalLines S m
  let m := (List.range S.np).foldl (evalPoint S) m
  let m := (List.range S.nr).foldl (evalRod S wt) m
  let m := (List.range S.nb).foldl (evalBody S wt) m
  let m := (List.range S.np).foldl (askPoint S) m
  let m := (List.range S.nr).foldl (askRod S wt) m
  (List.range S.nb).foldl (askBody S wt) m

theorem evaluate_eq (m : Mem Q FL FP FR FB) : evaluate S m = passBody S none (forces S m).ground (forces S m) := rfl

theorem mid_forces (hl : ∀ h : Holder, ∀ a ∈ h.list S, a.1 < S.nl) (o : Mem Q FL FP FR FB) :
    Mid S o (PointCounts S) (RodCounts S) (BodyCounts S) (forces S o) := by
  have h0 : Mid S o (fun _ => False) (fun _ => False) (fun _ => False) (evalLines S o) := by
    refine ⟨rfl, fun k => ?_, fun h a ha => ?_, fun k hk => ?_, fun _ => ⟨rfl, rfl⟩, fun _ => ⟨rfl, rfl, rfl, rfl, rfl, rfl, rfl⟩,
      fun _ => ⟨rfl, rfl, rfl, rfl, rfl⟩, rfl, fun _ h => h.elim, fun _ h => h.elim, fun _ h => h.elim⟩
    · simp only [evalLines]
      split_ifs <;> rfl
    · simp only [evalLines, if_pos (hl h a ha)]
      rfl
    · simp only [evalLines, if_pos hk]
      rfl
  have h1 := Mid.foldl (evalPoint S) (fun i j => S.pkind i = .FREE ∧ j = i) (fun _ _ => False) (fun _ _ => False) (List.range S.np)
    (fun m i _ P R B h => by
      unfold evalPoint
      split_ifs with hk
      · exact (h.rhsPoint i).weak (by simp [hk]) (by simp) (by simp)
      · exact h.weak (by simp [hk]) (by simp) (by simp)) h0
  have h2 := Mid.foldl (evalRod S (rodWater S o)) (fun _ _ => False)
    (fun i j => (S.rkind i = .FREE ∨ S.rkind i = .PINNED ∨ S.rkind i = .CPLDPIN) ∧ j = i) (fun _ _ => False) (List.range S.nr)
    (fun m i _ P R B h => by
      have h' := h.rhsRod i
      have h'' := h'.acc i (fun a => (0, a.2))
      unfold evalRod
      cases hk : S.rkind i with
      | FREE => exact h'.weak (by simp) (by simp) (by simp)
      | FIXED => exact h.weak (by simp) (by simp) (by simp)
      | PINNED => exact h''.weak (by simp) (by simp) (by simp)
      | COUPLED => exact h.weak (by simp) (by simp) (by simp)
      | CPLDPIN => exact h''.weak (by simp) (by simp) (by simp)) h1
  have h3 := Mid.foldl (evalBody S (rodWater S o))
    (fun b j => (S.bkind b = .FREE ∨ S.bkind b = .CPLDPIN) ∧ ∃ rel, (j, rel) ∈ S.pts (some b))
    (fun b j => (S.bkind b = .FREE ∨ S.bkind b = .CPLDPIN) ∧ ∃ rel, (j, rel) ∈ S.rods (some b))
    (fun b j => (S.bkind b = .FREE ∨ S.bkind b = .CPLDPIN) ∧ j = b) (List.range S.nb)
    (fun m i _ P R B h => by
      unfold evalBody
      split_ifs with hk
      · exact (h.rhsBody i).weak (by simp [hk]) (by simp [hk]) (by simp [hk])
      · exact h.weak (by simp [hk]) (by simp [hk]) (by simp [hk])) h2
  have h4 := Mid.foldl (askPoint S) (fun i j => S.pkind i = .COUPLED ∧ j = i) (fun _ _ => False) (fun _ _ => False) (List.range S.np)
    (fun m i _ P R B h => by
      unfold askPoint
      split_ifs with hk
      · exact (h.rhsPoint i).weak (by simp [hk]) (by simp) (by simp)
      · exact h.weak (by simp [hk]) (by simp) (by simp)) h3
  have h5 := Mid.foldl (askRod S (rodWater S o)) (fun _ _ => False) (fun i j => S.rkind i = .COUPLED ∧ j = i) (fun _ _ => False)
    (List.range S.nr) (fun m i _ P R B h => by
      unfold askRod
      split_ifs with hk
      · exact (h.rhsRod i).weak (by simp) (by simp [hk]) (by simp)
      · exact h.weak (by simp) (by simp [hk]) (by simp)) h4
  have h6 := Mid.foldl (askBody S (rodWater S o))
    (fun b j => S.bkind b = .COUPLED ∧ ∃ rel, (j, rel) ∈ S.pts (some b))
    (fun b j => S.bkind b = .COUPLED ∧ ∃ rel, (j, rel) ∈ S.rods (some b))
    (fun b j => S.bkind b = .COUPLED ∧ j = b) (List.range S.nb)
    (fun m i _ P R B h => by
      unfold askBody
      split_ifs with hk
      · exact (h.rhsBody i).weak (by simp [hk]) (by simp [hk]) (by simp [hk])
      · exact h.weak (by simp [hk]) (by simp [hk]) (by simp [hk])) h5
  refine h6.weak ?_ ?_ ?_
  · rintro i (⟨hi, hk⟩ | ⟨b, ⟨hb, hk⟩, hr⟩)
    · cases hK : S.pkind i with
      | FREE => exact .inl (.inl (.inl (.inl (.inl (.inr ⟨i, List.mem_range.mpr hi, hK, rfl⟩)))))
      | FIXED => exact absurd hK hk
      | COUPLED => exact .inl (.inl (.inr ⟨i, List.mem_range.mpr hi, hK, rfl⟩))
    · cases hK : S.bkind b with
      | FREE => exact .inl (.inl (.inl (.inr ⟨b, List.mem_range.mpr hb, .inl hK, hr⟩)))
      | FIXED => exact absurd hK hk
      | COUPLED => exact .inr ⟨b, List.mem_range.mpr hb, hK, hr⟩
      | CPLDPIN => exact .inl (.inl (.inl (.inr ⟨b, List.mem_range.mpr hb, .inr hK, hr⟩)))
  · rintro i (⟨hi, hk⟩ | ⟨b, ⟨hb, hk⟩, hr⟩)
    · cases hK : S.rkind i with
      | FREE => exact .inl (.inl (.inl (.inl (.inr ⟨i, List.mem_range.mpr hi, .inl hK, rfl⟩))))
      | FIXED => exact absurd hK hk
      | PINNED => exact .inl (.inl (.inl (.inl (.inr ⟨i, List.mem_range.mpr hi, .inr (.inl hK), rfl⟩))))
      | COUPLED => exact .inl (.inr ⟨i, List.mem_range.mpr hi, hK, rfl⟩)
      | CPLDPIN => exact .inl (.inl (.inl (.inl (.inr ⟨i, List.mem_range.mpr hi, .inr (.inr hK), rfl⟩))))
    · cases hK : S.bkind b with
      | FREE => exact .inl (.inl (.inl (.inr ⟨b, List.mem_range.mpr hb, .inl hK, hr⟩)))
      | FIXED => exact absurd hK hk
      | COUPLED => exact .inr ⟨b, List.mem_range.mpr hb, hK, hr⟩
      | CPLDPIN => exact .inl (.inl (.inl (.inr ⟨b, List.mem_range.mpr hb, .inr hK, hr⟩)))
  · rintro b ⟨hb, hk⟩
    cases hK : S.bkind b with
    | FREE => exact .inl (.inl (.inl (.inr ⟨b, List.mem_range.mpr hb, .inl hK, rfl⟩)))
    | FIXED => exact absurd hK hk
    | COUPLED => exact .inr ⟨b, List.mem_range.mpr hb, hK, rfl⟩
    | CPLDPIN => exact .inl (.inl (.inl (.inr ⟨b, List.mem_range.mpr hb, .inr hK, rfl⟩)))

/-! ## What moving things does not write -/

/-- The forces, and the nodes of rods between their ends. -/
def kept (S : System Q FL FP FR FB Wt) (m : Mem Q FL FP FR FB) :=
  ((fun k => (m.line k).F), (fun i => (m.point i).F), (fun i => (m.rod i).F), (fun b => (m.body b).F), m.ground.F,
    fun i j => if 1 ≤ j ∧ j < S.rodN i then ((m.rod i).r j, (m.rod i).rd j) else 0)

theorem passEnds_F (x xd : V) (l : List (ℕ × EndPt)) (f : ℕ → Line FL) : (fun k => (passEnds S x xd l f k).F) = fun k => (f k).F := by
  unfold passEnds
  induction l generalizing f with
  | nil => rfl
  | cons a l ih =>
    rw [List.foldl_cons, ih]
    funext k
    by_cases h : k = a.1
    · subst h
      rw [Function.update_self]
      unfold giveEnd
      split <;> rfl
    · rw [Function.update_of_ne h]

theorem passDirs_F (q : V) (e : REnd) (l : List (ℕ × EndPt)) (f : ℕ → Line FL) : (fun k => (passDirs q e l f k).F) = fun k => (f k).F := by
  unfold passDirs
  induction l generalizing f with
  | nil => rfl
  | cons a l ih =>
    rw [List.foldl_cons, ih]
    funext k
    by_cases h : k = a.1
    · subst h
      rw [Function.update_self]
      unfold giveDir
      split <;> rfl
    · rw [Function.update_of_ne h]

theorem kept_movePoint (i : ℕ) (x xd : V) (m : Mem Q FL FP FR FB) : kept S (movePoint S i x xd m) = kept S m := by
  simp only [kept, movePoint, passEnds_F, Prod.mk.injEq, true_and, and_true]
  funext j
  by_cases h : j = i
  · subst h; simp
  · simp [Function.update_of_ne h]

theorem kept_setRod (i : ℕ) (f : Rod Q FR → Rod Q FR) (hf : ∀ r, (f r).F = r.F ∧ (f r).r = r.r ∧ (f r).rd = r.rd)
    (m : Mem Q FL FP FR FB) : kept S (setRod i f m) = kept S m := by
  simp only [kept, setRod, Prod.mk.injEq, true_and]
  constructor
  · funext j
    by_cases h : j = i
    · subst h; simp [hf]
    · simp [Function.update_of_ne h]
  · funext j k
    by_cases h : j = i
    · subst h; simp [hf]
    · simp [Function.update_of_ne h]

theorem kept_passRod (i : ℕ) (m : Mem Q FL FP FR FB) : kept S (passRod S i m) = kept S m := by
  have hR : ∀ R : Rod Q FR, (rodEnds S i R).F = R.F ∧
      ∀ j, 1 ≤ j → j < S.rodN i → (rodEnds S i R).r j = R.r j ∧ (rodEnds S i R).rd j = R.rd j := by
    intro R
    unfold rodEnds
    split_ifs with h
    · refine ⟨rfl, fun j h1 h2 => ⟨?_, ?_⟩⟩ <;>
        simp [Function.update_of_ne (show j ≠ 0 by omega), Function.update_of_ne (show j ≠ S.rodN i by omega)]
    · exact ⟨rfl, fun j h1 h2 => by omega⟩
  simp only [kept, passRod, passEnds_F, passDirs_F, Prod.mk.injEq, true_and]
  constructor
  · funext j
    by_cases h : j = i
    · subst h
      rw [Function.update_self]
      split_ifs
      · exact (hR _).1
      · exact (hR _).1
    · simp [Function.update_of_ne h]
  · funext j k
    by_cases h : j = i
    · subst h
      rw [Function.update_self]
      by_cases hk : 1 ≤ k ∧ k < S.rodN j
      · rw [if_pos hk, if_pos hk, if_pos (by omega)]
        obtain ⟨h1, h2⟩ := (hR (m.rod j)).2 k hk.1 hk.2
        rw [h1, h2]
      · rw [if_neg hk, if_neg hk]
    · simp [Function.update_of_ne h]

theorem kept_rodKin (i : ℕ) (x v dir w : V) (m : Mem Q FL FP FR FB) : kept S (rodKin S i x v dir w m) = kept S m := by
  unfold rodKin
  dsimp only
  rw [kept_setRod i (fun R => { R with q := S.mat R.quat *ᵥ S.q0 i }) fun _ => ⟨rfl, rfl, rfl⟩]
  split_ifs
  · rw [kept_passRod, kept_setRod i (fun R => { R with pos := x, quat := S.between (S.q0 i) dir, vel := v, w := w }) fun _ => ⟨rfl, rfl, rfl⟩]
  · rw [kept_setRod i (fun R => { R with pos := x, vel := v }) fun _ => ⟨rfl, rfl, rfl⟩]

theorem kept_passBody (b : Option ℕ) (B : Body Q FB) (m : Mem Q FL FP FR FB) : kept S (passBody S b B m) = kept S m := by
  unfold passBody
  exact (foldl_same (kept S) _ _ (fun m a _ => kept_rodKin _ _ _ _ _ m) _).trans
    (foldl_same (kept S) _ _ (fun m a _ => kept_movePoint _ _ _ m) m)

theorem kept_putBody (b : ℕ) (X : Body Q FB) (m : Mem Q FL FP FR FB) (h : X.F = (m.body b).F) :
    kept S { m with body := Function.update m.body b X } = kept S m := by
  simp only [kept, Prod.mk.injEq, true_and, and_true]
  funext c
  by_cases hc : c = b
  · subst hc; simpa using h
  · simp [Function.update_of_ne hc]

theorem kept_update (t tl : ℝ) (e : State Q) (m : Mem Q FL FP FR FB) : kept S (update S t tl e m) = kept S m := by
  have hs : ∀ i (m : Mem Q FL FP FR FB), kept S (setRod i (settle S i) m) = kept S m := fun i m =>
    kept_setRod i _ (fun r => by unfold settle; split_ifs <;> exact ⟨rfl, rfl, rfl⟩) m
  unfold update
  dsimp only
  rw [show ∀ m : Mem Q FL FP FR FB, kept S (stateLines S e.1 m) = kept S m from fun m => by
    simp only [kept, stateLines, Prod.mk.injEq, true_and, and_true]
    funext k
    split_ifs <;> rfl]
  rw [foldl_same (kept S) (statePoint S e.2.1) _ fun m i _ => by
    unfold statePoint
    split_ifs
    · exact kept_movePoint _ _ _ m
    · rfl]
  rw [foldl_same (kept S) (stateRod S e.2.2.1) _ fun m i _ => by
    unfold stateRod
    cases S.rkind i with
    | FREE =>
      dsimp only
      rw [hs, kept_passRod]
      exact kept_setRod i _ (by intro r; exact ⟨rfl, rfl, rfl⟩) m
    | PINNED =>
      dsimp only
      rw [hs, kept_passRod]
      exact kept_setRod i _ (by intro r; exact ⟨rfl, rfl, rfl⟩) m
    | CPLDPIN =>
      dsimp only
      rw [hs, kept_passRod]
      exact kept_setRod i _ (by intro r; exact ⟨rfl, rfl, rfl⟩) m
    | COUPLED => rfl
    | FIXED => rfl]
  rw [foldl_same (kept S) (stateBody S e.2.2.2) _ fun m b _ => by
    unfold stateBody
    cases S.bkind b with
    | FREE => exact (kept_passBody _ _ _).trans (kept_putBody b _ m rfl)
    | CPLDPIN => exact (kept_passBody _ _ _).trans (kept_putBody b _ m rfl)
    | COUPLED => rfl
    | FIXED => rfl]
  rw [foldl_same (kept S) (fairPoint S tl) _ fun m i _ => by
    unfold fairPoint
    split_ifs
    · exact kept_movePoint _ _ _ m
    · rfl]
  rw [foldl_same (kept S) (fairRod S tl) _ fun m i _ => by
    unfold fairRod
    cases S.rkind i with
    | FREE => rfl
    | PINNED => rfl
    | CPLDPIN => exact kept_setRod i _ (by intro r; exact ⟨rfl, rfl, rfl⟩) m
    | COUPLED => exact (kept_passRod _ _).trans (kept_setRod i _ (by intro r; exact ⟨rfl, rfl, rfl⟩) m)
    | FIXED => rfl]
  rw [foldl_same (kept S) (fairBody S tl) _ fun m b _ => by
    unfold fairBody
    cases S.bkind b with
    | FREE => rfl
    | CPLDPIN => exact kept_putBody b _ m rfl
    | COUPLED => exact (kept_passBody _ _ _).trans (kept_putBody b _ m rfl)
    | FIXED => rfl]
  exact (kept_passBody _ _ _).trans rfl

theorem kept_initiate (x : Asked) (m : Mem Q FL FP FR FB) : kept S (initiate S x m) = kept S m := by
  unfold initiate
  dsimp only
  rw [foldl_same (kept S) (initPoint S x.point) _ fun m i _ => by
    unfold initPoint
    dsimp only
    split_ifs
    · simp only [kept, Prod.mk.injEq, true_and, and_true]
      funext j
      by_cases h : j = i
      · subst h; simp
      · simp [Function.update_of_ne h]
    · rfl]
  rw [foldl_same (kept S) (initRod S x.dt x.rod) _ fun m i _ => by
    unfold initRod
    cases S.rkind i with
    | FREE => rfl
    | PINNED => rfl
    | CPLDPIN => exact kept_setRod i _ (by intro r; exact ⟨rfl, rfl, rfl⟩) m
    | COUPLED => exact (kept_passRod _ _).trans (kept_setRod i _ (by intro r; exact ⟨rfl, rfl, rfl⟩) m)
    | FIXED => rfl]
  rw [foldl_same (kept S) (initBody S x.dt x.body) _ fun m b _ => by
    unfold initBody
    cases S.bkind b with
    | FREE => rfl
    | CPLDPIN => exact kept_putBody b _ m rfl
    | COUPLED => exact kept_putBody b _ m rfl
    | FIXED => rfl]

end MD.Whole
