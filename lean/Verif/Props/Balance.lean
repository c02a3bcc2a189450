import Verif.Props.Relabel
import Verif.Props.Energy
import Mathlib.LinearAlgebra.Matrix.NonsingularInverse
import Mathlib.LinearAlgebra.Matrix.ToLinearEquiv

/-!
# C104: what is given back for the points balances the loads and the inertia of the whole system
-/

set_option linter.unusedSimpArgs false
set_option linter.unusedVariables false
set_option linter.unusedSectionVars false

namespace MD.Balance

open Matrix Finset MD.Mat MD.Mooring MD.Bodies MD.Moored MD.Energy

/-! ## Specification -/

/-- What acts on a node from outside: weight less buoyancy, drag, inertia of the water, bottom. -/
noncomputable def load (L : Line) (e : Env) (j : ℕ) : V :=
  W L e j + (Dp L e j + Dq L e j) + (Ap L e j + Aq L e j) + B L e j

/-- What acts on a point from outside: applied force, weight, buoyancy, drag. -/
noncomputable def own (S : System) (m : Mem) (p : ℕ) : V :=
  (m.point p).pointF + ![0, 0, -((m.point p).pointM * S.sea.g)] +
    ![0, 0, S.sea.rho_w * S.sea.g * (m.point p).pointV] +
    quadDrag S.sea.rho_w (m.point p).pointCdA ((S.kin m.t (m.point p).r).2.1 - (m.point p).rd)

/-- The mass that moves with a point: its own, that of the water it carries, and those of the ends attached. -/
noncomputable def heft (S : System) (m : Mem) (p : ℕ) : M3 ℝ :=
  ((S.att p).map fun a => M (m.line a.1) (lineEnv S m a.1) (endNode (m.line a.1) a.2)).sum +
    ((m.point p).pointM + (m.point p).pointCa * (S.sea.rho_w * (m.point p).pointV)) • (1 : M3 ℝ)

/-- The ends of the lines are where their points are and move with them, and are pinned. -/
def Tied (S : System) (m : Mem) : Prop :=
  ∀ p < S.np, ∀ a ∈ S.att p, Relabel.endVal a.2 (m.line a.1) = ((m.point p).r, (m.point p).rd, .PINNED)

/-- The lines that are considered: at least one segment and no internal pressure. -/
def Plain (S : System) (m : Mem) : Prop := ∀ i, 1 ≤ (m.line i).N ∧ (i < S.nl → (m.line i).isPb = false)

/-- Everything the integrators and the calling program can make of the system. -/
inductive Reach (S : System) (m0 : Mem) : Mem → Prop
  | start : Reach S m0 m0
  | given (x : ℕ → V × V) (m : Mem) : Reach S m0 m → Reach S m0 (initiate S x m)
  | placed (t tl : ℝ) (e : State) (m : Mem) : Reach S m0 m → Reach S m0 (update S t tl e m)
  | asked (m : Mem) : Reach S m0 m → Reach S m0 (eval S m).2

/-! ## The lines stay attached -/

theorem Wired.sound {S : System} (hw : Wired S) (hatt : ∀ p, S.np ≤ p → S.att p = []) : Relabel.Sound S := by
  have hlt : ∀ p a, a ∈ S.att p → p < S.np := by
    intro p a ha
    by_contra h
    rw [hatt p (by omega)] at ha
    cases ha
  have hnd : ((List.range S.np).flatMap S.att).Nodup := by
    rw [List.Perm.nodup_iff hw, List.nodup_flatMap]
    refine ⟨fun i _ => by simp, ?_⟩
    refine List.Nodup.pairwise_of_forall_ne List.nodup_range ?_
    intro i _ j _ hij a ha hb
    simp only [List.mem_cons, List.not_mem_nil, or_false] at ha hb
    rcases ha with rfl | rfl <;> rcases hb with h | h <;> simp_all
  constructor
  · intro i j a hi hj
    by_contra hij
    have h := (List.nodup_flatMap.1 hnd).2
    have hp : List.Pairwise (Function.onFun List.Disjoint S.att) (List.range S.np) := h
    have hd : ∀ x y, x < y → y < S.np → ∀ a, a ∈ S.att x → a ∈ S.att y → False := by
      intro x y hxy hy a hx hy'
      have := List.pairwise_iff_getElem.1 hp x y (by simp; omega) (by simp; omega) hxy
      simp only [List.getElem_range] at this
      exact this hx hy'
    rcases Nat.lt_or_gt_of_ne hij with hlt' | hlt'
    · exact hd i j hlt' (hlt _ _ hj) a hi hj
    · exact hd j i hlt' (hlt _ _ hi) a hj hi
  · intro p a ha
    exact att_line hw (hlt _ _ ha) ha

theorem lineState_end (e : ℕ → V × V) (L : Line) (p : EndPt) :
    Relabel.endVal p (lineState e L) = Relabel.endVal p L := by
  cases p <;> simp [Relabel.endVal, lineState]

section
variable {S : System}

theorem update_spec (hS : Relabel.Sound S) (t tl : ℝ) (e : State) {m : Mem} (hN : ∀ i, 1 ≤ (m.line i).N) (ht : Tied S m) :
    Tied S (update S t tl e m) ∧
    ∀ i, ((update S t tl e m).line i).N = (m.line i).N ∧ ((update S t tl e m).line i).isPb = (m.line i).isPb := by
  have hm := Relabel.moves_spec S (Relabel.movesOf S tl e m.ves) m hN
  rw [← Relabel.folds_eq] at hm
  generalize hu : (List.range S.np).foldl (freeState S e) ((List.range S.np).foldl (fairlead S tl) m) = u at hm
  have hline : ∀ i, (update S t tl e m).line i = if i < S.nl then lineState (e.1 i) (u.line i) else u.line i := by
    intro i; unfold update; dsimp only; rw [hu]
  have hpoint : ∀ p, (update S t tl e m).point p = u.point p := by
    intro p; unfold update; dsimp only; rw [hu]
  constructor
  · intro p hp a ha
    obtain ⟨i, z⟩ := a
    have he : Relabel.endVal z ((update S t tl e m).line i) = Relabel.endVal z (u.line i) := by
      rw [hline]
      split
      · exact lineState_end _ _ _
      · rfl
    rw [he, hpoint, Relabel.point_spec hm p]
    have hs := Relabel.end_spec hS hm i z
    cases hx : Relabel.placed S tl e m.ves p with
    | some x => exact hs.1 p x ha hx
    | none =>
      rw [hs.2 fun k hk => by rw [hS.one k p _ hk ha]; exact hx]
      exact ht p hp _ ha
  · intro i
    rw [hline]
    have h := hm.only i
    split
    · exact ⟨h.N, by show (u.line i).isPb = _; rw [h.eq]⟩
    · exact ⟨h.N, by rw [h.eq]⟩

/-- C104: in every simulation, with every scheme, the lines stay attached to their points. -/
theorem C104_tied (hw : Wired S) (hatt : ∀ p, S.np ≤ p → S.att p = []) {m0 m : Mem} (hp : Plain S m0) (ht : Tied S m0)
    (h : Reach S m0 m) : Plain S m ∧ Tied S m := by
  induction h with
  | start => exact ⟨hp, ht⟩
  | given x m _ ih => exact ih
  | placed t tl e m _ ih =>
    obtain ⟨h1, h2⟩ := update_spec (Wired.sound hw hatt) t tl e (fun i => (ih.1 i).1) ih.2
    exact ⟨fun i => ⟨by rw [(h2 i).1]; exact (ih.1 i).1, fun hi => by rw [(h2 i).2]; exact (ih.1 i).2 hi⟩, h1⟩
  | asked m _ ih => exact ih

/-! ## Forces and moments -/

theorem sum_ends (hw : Wired S) (G : ℕ × EndPt → V) :
    ∑ i ∈ range S.nl, (G (i, .BOTTOM) + G (i, .TOP)) = ∑ p ∈ range S.np, ((S.att p).map G).sum := by
  have h := (hw.map G).sum_eq
  have e : ∀ (n : ℕ) (f : ℕ → List (ℕ × EndPt)),
      (((List.range n).flatMap f).map G).sum = ∑ p ∈ range n, ((f p).map G).sum := by
    intro n f
    induction n with
    | zero => simp
    | succ n ih =>
      rw [List.range_succ, List.flatMap_append, List.map_append, List.sum_append, ih, sum_range_succ]
      simp
  rw [e, e] at h
  rw [h]
  apply sum_congr rfl
  intro i _
  simp

/-- The moments of the net forces of a line without clamped ends are those of its loads. -/
theorem net_moment (L : Line) (e : Env) (hN : 1 ≤ L.N) (hP : L.isPb = false) (hA : L.endTypeA = .PINNED)
    (hB : L.endTypeB = .PINNED) (hl : isEI L → ∀ j < L.N, 100 * eps / 2 < lstr L j) (f : ℕ → V)
    (hf : ∀ j ≤ L.N, Fnet L e j = some (f j)) :
    ∑ j ∈ range (L.N + 1), L.r j ⨯₃ f j = ∑ j ∈ range (L.N + 1), L.r j ⨯₃ load L e j := by
  have h1 : ∀ i ≤ L.N, ∃ a, axial L i = some a ∧ f i = a + load L e i + Bs L i := by
    intro i hi
    have h := hf i hi
    unfold Fnet at h
    cases ha : axial L i with
    | none => rw [ha] at h; exact absurd h (by simp)
    | some a =>
      rw [ha] at h
      simp only [Option.bind_eq_bind, Option.bind_some, Option.pure_def, Option.some.injEq] at h
      have hPb : Pb L e i = 0 := by
        unfold Pb
        rw [if_neg (by rw [hP]; simp)]
      exact ⟨a, rfl, by rw [← h, hPb]; unfold load; module⟩
  choose! a ha using h1
  have h2 := C29_tension_damping_moment L hN a (fun i hi => (ha i hi).1)
  have h3 : ∑ j ∈ range (L.N + 1), L.r j ⨯₃ Bs L j = 0 := by
    by_cases hEI : isEI L
    · rw [C29_bending_moment L hN hEI (hl hEI), hA, hB]
      simp
    · apply sum_eq_zero
      intro j _
      unfold Bs
      rw [if_neg hEI, map_zero]
  rw [sum_congr rfl (fun i hi => by rw [(ha i (by have := mem_range.1 hi; omega)).2, map_add, map_add]),
    sum_add_distrib, sum_add_distrib, h2, h3, zero_add, add_zero]

variable {m : Mem}

theorem mapM_some {α β : Type} (g : α → Option β) (l : List α) (k : List β) (h : l.mapM g = some k) :
    ∀ a ∈ l, ∃ b, g a = some b := by
  induction l generalizing k with
  | nil => intro a ha; cases ha
  | cons x l ih =>
    rw [List.mapM_cons] at h
    cases hx : g x with
    | none => rw [hx] at h; cases h
    | some y =>
      rw [hx] at h
      cases hl : l.mapM g with
      | none => rw [hl] at h; cases h
      | some k' =>
        intro a ha
        rcases List.mem_cons.1 ha with rfl | ha
        · exact ⟨y, hx⟩
        · exact ih k' hl a ha

theorem mapM_map {α β : Type} (g : α → Option β) (g' : α → β) (l : List α) (h : ∀ a ∈ l, g a = some (g' a)) :
    l.mapM g = some (l.map g') := by
  induction l with
  | nil => rfl
  | cons x l ih =>
    rw [List.mapM_cons, h x List.mem_cons_self, ih fun a ha => h a (List.mem_cons_of_mem _ ha)]
    rfl

/-- What is known of the ends if the force on a point is a number. -/
theorem ends_known {a : ℕ × EndPt} {x : V × V × M3 ℝ} (h : getEndStuff (m.line a.1) (lineEnv S m a.1) a.2 = some x) :
    Fnet (m.line a.1) (lineEnv S m a.1) (endNode (m.line a.1) a.2) = some x.1 := by
  obtain ⟨i, z⟩ := a
  cases z
  · change (Fnet (m.line i) (lineEnv S m i) (m.line i).N >>= fun f => pure (f, (0 : V), M (m.line i) (lineEnv S m i) (m.line i).N)) = some x at h
    show Fnet (m.line i) (lineEnv S m i) (m.line i).N = some x.1
    cases hf : Fnet (m.line i) (lineEnv S m i) (m.line i).N with
    | none => rw [hf] at h; cases h
    | some f => rw [hf] at h; rw [← Option.some.inj h]
  · change (Fnet (m.line i) (lineEnv S m i) 0 >>= fun f => pure (f, (0 : V), M (m.line i) (lineEnv S m i) 0)) = some x at h
    show Fnet (m.line i) (lineEnv S m i) 0 = some x.1
    cases hf : Fnet (m.line i) (lineEnv S m i) 0 with
    | none => rw [hf] at h; cases h
    | some f => rw [hf] at h; rw [← Option.some.inj h]

theorem loaded_eq (f : ℕ → ℕ → V) (p : ℕ)
    (hf : ∀ a ∈ S.att p, Fnet (m.line a.1) (lineEnv S m a.1) (endNode (m.line a.1) a.2) = some (f a.1 (endNode (m.line a.1) a.2))) :
    ∃ P, loaded S m p = some P ∧ P.rd = (m.point p).rd ∧ (P.doRHS S.sea.rho_w S.sea.g).2 = heft S m p ∧
      (P.doRHS S.sea.rho_w S.sea.g).1 = ((S.att p).map fun a => f a.1 (endNode (m.line a.1) a.2)).sum + own S m p := by
  have hst : ∀ a ∈ S.att p, getEndStuff (m.line a.1) (lineEnv S m a.1) a.2 = some (f a.1 (endNode (m.line a.1) a.2), 0,
      M (m.line a.1) (lineEnv S m a.1) (endNode (m.line a.1) a.2)) := by
    intro a ha
    have h := hf a ha
    obtain ⟨i, z⟩ := a
    cases z
    · show (Fnet (m.line i) (lineEnv S m i) (m.line i).N >>= fun f => pure (f, (0 : V), M (m.line i) (lineEnv S m i) (m.line i).N)) = _
      change Fnet (m.line i) (lineEnv S m i) (m.line i).N = _ at h
      rw [h]; rfl
    · show (Fnet (m.line i) (lineEnv S m i) 0 >>= fun f => pure (f, (0 : V), M (m.line i) (lineEnv S m i) 0)) = _
      change Fnet (m.line i) (lineEnv S m i) 0 = _ at h
      rw [h]; rfl
  unfold loaded
  rw [mapM_map _ _ _ hst, Option.map_some]
  refine ⟨_, rfl, rfl, ?_, ?_⟩
  · rw [C40_mass]
    simp only [List.map_map]
    rfl
  · rw [C40_net_force]
    simp only [List.map_map]
    rfl

/-- Forces and moments at once: `k` is what is taken of a force at a place. -/
theorem balance (k : V → V →ₗ[ℝ] V) (hw : Wired S) (ht : Tied S m) (hp : Plain S m)
    (f : ℕ → ℕ → V) (hf : ∀ i < S.nl, ∀ j ≤ (m.line i).N, Fnet (m.line i) (lineEnv S m i) j = some (f i j))
    (hk : ∀ i < S.nl, ∑ j ∈ range ((m.line i).N + 1), k ((m.line i).r j) (f i j) =
      ∑ j ∈ range ((m.line i).N + 1), k ((m.line i).r j) (load (m.line i) (lineEnv S m i) j)) :
    ∑ p ∈ range S.np, k (m.point p).r (((S.att p).map fun a => f a.1 (endNode (m.line a.1) a.2)).sum + own S m p) +
      ∑ i ∈ range S.nl, ∑ j ∈ Ico 1 (m.line i).N, k ((m.line i).r j) (f i j) =
    ∑ i ∈ range S.nl, ∑ j ∈ range ((m.line i).N + 1), k ((m.line i).r j) (load (m.line i) (lineEnv S m i) j) +
      ∑ p ∈ range S.np, k (m.point p).r (own S m p) := by
  let G : ℕ × EndPt → V := fun a => k ((m.line a.1).r (endNode (m.line a.1) a.2)) (f a.1 (endNode (m.line a.1) a.2))
  have hG : ∀ p < S.np, k (m.point p).r ((S.att p).map fun a => f a.1 (endNode (m.line a.1) a.2)).sum =
      ((S.att p).map G).sum := by
    intro p hp'
    rw [map_list_sum, List.map_map]
    congr 1
    apply List.map_congr_left
    intro a ha
    have h := ht p hp' a ha
    have hr : (m.line a.1).r (endNode (m.line a.1) a.2) = (m.point p).r := by
      obtain ⟨i, z⟩ := a
      cases z
      · exact congrArg Prod.fst h
      · exact congrArg Prod.fst h
    show k _ _ = k _ _
    rw [hr]
  have h1 : ∑ p ∈ range S.np, k (m.point p).r (((S.att p).map fun a => f a.1 (endNode (m.line a.1) a.2)).sum + own S m p) =
      ∑ i ∈ range S.nl, (G (i, .BOTTOM) + G (i, .TOP)) + ∑ p ∈ range S.np, k (m.point p).r (own S m p) := by
    rw [sum_ends hw G, ← sum_add_distrib]
    apply sum_congr rfl
    intro p hp'
    rw [map_add, hG p (mem_range.1 hp')]
  rw [h1, add_right_comm, ← sum_add_distrib]
  congr 1
  apply sum_congr rfl
  intro i hi
  rw [← hk i (mem_range.1 hi)]
  have hN := (hp i).1
  rw [range_eq_Ico, sum_eq_sum_Ico_succ_bot (Nat.succ_pos _), zero_add, sum_Ico_succ_top hN]
  show k ((m.line i).r 0) (f i 0) + k ((m.line i).r (m.line i).N) (f i (m.line i).N) + _ = _
  abel

/-- All forces which are given to the integrator and to the calling program are numbers, and all masses can be inverted. -/
structure Sane (S : System) (m : Mem) (a : ℕ → ℕ → V) (c R : ℕ → V) : Prop where
  node : ∀ i < S.nl, ∀ j, 1 ≤ j → j < (m.line i).N → nodeRate S m i j = some ((m.line i).rd j, a i j)
  point : ∀ p < S.np, S.kind p = .FREE → pointRate S m p = some ((m.point p).rd, c p)
  held : ∀ p < S.np, S.kind p ≠ .FREE → reported S m p = some (R p)
  mass : ∀ i < S.nl, ∀ j, 1 ≤ j → j < (m.line i).N → IsUnit (M (m.line i) (lineEnv S m i) j).det
  heft : ∀ p < S.np, S.kind p = .FREE → IsUnit (heft S m p).det

theorem solve {A : M3 ℝ} (h : IsUnit A.det) (f : V) : A *ᵥ (A⁻¹ *ᵥ f) = f := by
  rw [Matrix.mulVec_mulVec, Matrix.mul_nonsing_inv _ h, Matrix.one_mulVec]

open Classical in
theorem balance' (k : V → V →ₗ[ℝ] V) (hw : Wired S) (ht : Tied S m) (hp : Plain S m) {a : ℕ → ℕ → V} {c R : ℕ → V}
    (hs : Sane S m a c R)
    (hk : ∀ i < S.nl, ∀ f : ℕ → V, (∀ j ≤ (m.line i).N, Fnet (m.line i) (lineEnv S m i) j = some (f j)) →
      ∑ j ∈ range ((m.line i).N + 1), k ((m.line i).r j) (f j) =
      ∑ j ∈ range ((m.line i).N + 1), k ((m.line i).r j) (load (m.line i) (lineEnv S m i) j)) :
    ∑ p ∈ range S.np with S.kind p ≠ .FREE, k (m.point p).r (R p) =
    ∑ i ∈ range S.nl, ∑ j ∈ range ((m.line i).N + 1), k ((m.line i).r j) (load (m.line i) (lineEnv S m i) j) +
      ∑ p ∈ range S.np, k (m.point p).r (own S m p) -
      (∑ i ∈ range S.nl, ∑ j ∈ Ico 1 (m.line i).N, k ((m.line i).r j) (M (m.line i) (lineEnv S m i) j *ᵥ a i j) +
        ∑ p ∈ range S.np with S.kind p = .FREE, k (m.point p).r (heft S m p *ᵥ c p)) := by
  -- all net forces are numbers
  have hex : ∀ i j, ∃ f : V, i < S.nl → j ≤ (m.line i).N → Fnet (m.line i) (lineEnv S m i) j = some f := by
    intro i j
    by_cases hi : i < S.nl
    swap
    · exact ⟨0, fun h => absurd h hi⟩
    by_cases hj : j ≤ (m.line i).N
    swap
    · exact ⟨0, fun _ h => absurd h hj⟩
    have hend : ∀ z : EndPt, ∃ f, Fnet (m.line i) (lineEnv S m i) (endNode (m.line i) z) = some f := by
      intro z
      obtain ⟨p, hp', ha⟩ := end_point hw hi z
      have hl : ∃ P, loaded S m p = some P := by
        by_cases hF : S.kind p = .FREE
        · have h := hs.point p hp' hF
          unfold pointRate at h
          cases hl : loaded S m p with
          | none => rw [hl] at h; cases h
          | some P => exact ⟨P, rfl⟩
        · have h := hs.held p hp' hF
          unfold reported at h
          cases hl : loaded S m p with
          | none => rw [hl] at h; cases h
          | some P => exact ⟨P, rfl⟩
      obtain ⟨P, hl⟩ := hl
      unfold loaded at hl
      cases hm : (S.att p).mapM fun a => getEndStuff (m.line a.1) (lineEnv S m a.1) a.2 with
      | none => rw [hm] at hl; cases hl
      | some l =>
        obtain ⟨x, hx⟩ := mapM_some _ _ _ hm _ ha
        exact ⟨_, ends_known (a := (i, z)) hx⟩
    by_cases h0 : j = 0
    · obtain ⟨f, hf⟩ := hend .BOTTOM
      exact ⟨f, fun _ _ => by rw [h0]; exact hf⟩
    by_cases hN : j = (m.line i).N
    · obtain ⟨f, hf⟩ := hend .TOP
      exact ⟨f, fun _ _ => by rw [hN]; exact hf⟩
    have h := hs.node i hi j (by omega) (by omega)
    unfold nodeRate at h
    cases hf : Fnet (m.line i) (lineEnv S m i) j with
    | none => rw [hf] at h; cases h
    | some f => exact ⟨f, fun _ _ => rfl⟩
  choose f hf using hex
  have hb := balance k hw ht hp f (fun i hi j hj => hf i j hi hj) (fun i hi => hk i hi (f i) fun j hj => hf i j hi hj)
  have hP : ∀ p < S.np, ∃ P, loaded S m p = some P ∧ P.rd = (m.point p).rd ∧
      (P.doRHS S.sea.rho_w S.sea.g).2 = heft S m p ∧
      (P.doRHS S.sea.rho_w S.sea.g).1 = ((S.att p).map fun a => f a.1 (endNode (m.line a.1) a.2)).sum + own S m p := by
    intro p hp'
    refine loaded_eq f p fun a ha => hf _ _ (att_line hw hp' ha) ?_
    obtain ⟨i, z⟩ := a
    cases z <;> simp [endNode]
  have hheld : ∀ p < S.np, S.kind p ≠ .FREE →
      R p = ((S.att p).map fun a => f a.1 (endNode (m.line a.1) a.2)).sum + own S m p := by
    intro p hp' hF
    obtain ⟨P, h1, -, -, h4⟩ := hP p hp'
    have h := hs.held p hp' hF
    unfold reported at h
    rw [h1, Option.map_some] at h
    rw [← h4, Option.some.inj h]
  have hfree : ∀ p < S.np, S.kind p = .FREE →
      heft S m p *ᵥ c p = ((S.att p).map fun a => f a.1 (endNode (m.line a.1) a.2)).sum + own S m p := by
    intro p hp' hF
    obtain ⟨P, h1, -, h3, h4⟩ := hP p hp'
    have h := hs.point p hp' hF
    unfold pointRate at h
    rw [h1, Option.map_some] at h
    have h5 := congrArg Prod.snd (Option.some.inj h)
    dsimp only at h5
    rw [← h5, h3, h4]
    exact solve (hs.heft p hp' hF) _
  have hinner : ∀ i < S.nl, ∀ j ∈ Ico 1 (m.line i).N, M (m.line i) (lineEnv S m i) j *ᵥ a i j = f i j := by
    intro i hi j hj
    rw [mem_Ico] at hj
    have h := hs.node i hi j hj.1 hj.2
    unfold nodeRate at h
    rw [hf i j hi (by omega), Option.map_some] at h
    have h5 := congrArg Prod.snd (Option.some.inj h)
    dsimp only at h5
    rw [← h5]
    exact solve (hs.mass i hi j hj.1 hj.2) _
  have e1 : ∑ i ∈ range S.nl, ∑ j ∈ Ico 1 (m.line i).N, k ((m.line i).r j) (M (m.line i) (lineEnv S m i) j *ᵥ a i j) =
      ∑ i ∈ range S.nl, ∑ j ∈ Ico 1 (m.line i).N, k ((m.line i).r j) (f i j) :=
    sum_congr rfl fun i hi => sum_congr rfl fun j hj => by rw [hinner i (mem_range.1 hi) j hj]
  have e2 : ∑ p ∈ range S.np with S.kind p ≠ .FREE, k (m.point p).r (R p) = ∑ p ∈ range S.np with ¬ S.kind p = .FREE,
      k (m.point p).r (((S.att p).map fun a => f a.1 (endNode (m.line a.1) a.2)).sum + own S m p) :=
    sum_congr rfl fun p hp' => by
      rw [mem_filter] at hp'
      rw [hheld p (mem_range.1 hp'.1) hp'.2]
  have e3 : ∑ p ∈ range S.np with S.kind p = .FREE, k (m.point p).r (heft S m p *ᵥ c p) =
      ∑ p ∈ range S.np with S.kind p = .FREE,
        k (m.point p).r (((S.att p).map fun a => f a.1 (endNode (m.line a.1) a.2)).sum + own S m p) :=
    sum_congr rfl fun p hp' => by
      rw [mem_filter] at hp'
      rw [hfree p (mem_range.1 hp'.1) hp'.2]
  rw [← hb, e1, e2, e3, ← sum_filter_add_sum_filter_not (range S.np) (fun p => S.kind p = .FREE)]
  abel

open Classical in
/-- C104, forces: what `MoorDyn_Step` gives back for the points that are not free adds up to all the loads on the lines and points
less mass times acceleration of all that moves freely. -/
theorem C104_force (hw : Wired S) (ht : Tied S m) (hp : Plain S m) {a : ℕ → ℕ → V} {c R : ℕ → V} (hs : Sane S m a c R) :
    ∑ p ∈ range S.np with S.kind p ≠ .FREE, R p =
    ∑ i ∈ range S.nl, ∑ j ∈ range ((m.line i).N + 1), load (m.line i) (lineEnv S m i) j + ∑ p ∈ range S.np, own S m p -
      (∑ i ∈ range S.nl, ∑ j ∈ Ico 1 (m.line i).N, M (m.line i) (lineEnv S m i) j *ᵥ a i j +
        ∑ p ∈ range S.np with S.kind p = .FREE, heft S m p *ᵥ c p) := by
  have h := balance' (fun _ => LinearMap.id) hw ht hp hs (fun i hi f hf =>
    C29_net_force (m.line i) (lineEnv S m i) (hp i).1 ((hp i).2 hi) f hf)
  simpa only [LinearMap.id_apply] using h

open Classical in
/-- C104, moments: and the same for the moments about the origin, and so about any place. -/
theorem C104_moment (hw : Wired S) (ht : Tied S m) (hp : Plain S m) {a : ℕ → ℕ → V} {c R : ℕ → V} (hs : Sane S m a c R)
    (hl : ∀ i < S.nl, isEI (m.line i) → ∀ j < (m.line i).N, 100 * eps / 2 < lstr (m.line i) j) :
    ∑ p ∈ range S.np with S.kind p ≠ .FREE, (m.point p).r ⨯₃ R p =
    ∑ i ∈ range S.nl, ∑ j ∈ range ((m.line i).N + 1), (m.line i).r j ⨯₃ load (m.line i) (lineEnv S m i) j +
      ∑ p ∈ range S.np, (m.point p).r ⨯₃ own S m p -
      (∑ i ∈ range S.nl, ∑ j ∈ Ico 1 (m.line i).N, (m.line i).r j ⨯₃ (M (m.line i) (lineEnv S m i) j *ᵥ a i j) +
        ∑ p ∈ range S.np with S.kind p = .FREE, (m.point p).r ⨯₃ (heft S m p *ᵥ c p)) := by
  have hpin : ∀ i < S.nl, (m.line i).endTypeA = .PINNED ∧ (m.line i).endTypeB = .PINNED := by
    intro i hi
    obtain ⟨p, hp', ha⟩ := end_point hw hi .BOTTOM
    obtain ⟨p', hp'', ha'⟩ := end_point hw hi .TOP
    exact ⟨congrArg (·.2.2) (ht p hp' _ ha), congrArg (·.2.2) (ht p' hp'' _ ha')⟩
  exact balance' (fun x => crossL x) hw ht hp hs (fun i hi f hf =>
    net_moment (m.line i) (lineEnv S m i) (hp i).1 ((hp i).2 hi) (hpin i hi).1 (hpin i hi).2 (hl i hi) f hf)

/-! ## The hypotheses hold -/

theorem unit_of_pos {A : M3 ℝ} (h : ∀ x : V, x ≠ 0 → 0 < x ⬝ᵥ A *ᵥ x) : IsUnit A.det := by
  rw [isUnit_iff_ne_zero]
  intro h0
  obtain ⟨x, hx, hA⟩ := Matrix.exists_mulVec_eq_zero_iff.2 h0
  have := h x hx
  rw [hA, dotProduct_zero] at this
  exact lt_irrefl _ this

theorem dot_self_pos {x : V} (hx : x ≠ 0) : 0 < x ⬝ᵥ x := by
  by_contra h
  apply hx
  have h0 : x ⬝ᵥ x ≤ 0 := not_lt.1 h
  simp only [dotProduct, Fin.sum_univ_three] at h0
  have a := mul_self_nonneg (x 0)
  have b := mul_self_nonneg (x 1)
  have c := mul_self_nonneg (x 2)
  ext k
  fin_cases k
  · exact mul_self_eq_zero.1 (show x 0 * x 0 = 0 by linarith)
  · exact mul_self_eq_zero.1 (show x 1 * x 1 = 0 by linarith)
  · exact mul_self_eq_zero.1 (show x 2 * x 2 = 0 by linarith)

/-- A line with a mass. -/
structure Massive (L : Line) : Prop where
  l : ∀ j, 0 < L.l j
  V : ∀ j, 0 ≤ L.V j
  d : 0 < L.d
  rho : 0 < L.rho
  Can : 0 ≤ L.Can
  Cat : 0 ≤ L.Cat
  qA : L.qA ⬝ᵥ L.qA ≤ 1
  qB : L.qB ⬝ᵥ L.qB ≤ 1
  damp : L.damp = none

theorem M_pos {L : Line} (h : Massive L) {e : Env} (hr : 0 ≤ e.rho_w) (i : ℕ) (x : V) (hx : x ≠ 0) :
    0 < x ⬝ᵥ M L e i *ᵥ x := by
  have hxx := dot_self_pos hx
  have hm : 0 < Mooring.m L i := by
    unfold Mooring.m
    have ha : 0 < adjacent L.N L.l i := by
      unfold adjacent
      split
      · exact h.l _
      · split
        · exact h.l _
        · exact add_pos (h.l _) (h.l _)
    have := h.d
    have := h.rho
    have := Real.pi_pos
    positivity
  have hv : 0 ≤ v L e i := by
    unfold v
    have := adjacent_nonneg L.N (fun j => F L e j * L.V j)
      (fun j => mul_nonneg (C34_in_unit_interval _ h.d.le _ _ _).1 (h.V j)) i
    positivity
  have hq := q_le_one L h.qA h.qB i
  have hc := cauchy (q L i) x
  have hd : (q L i ⬝ᵥ x) ^ 2 ≤ x ⬝ᵥ x := by nlinarith
  have e1 : x ⬝ᵥ M L e i *ᵥ x = Mooring.m L i * (x ⬝ᵥ x) +
      e.rho_w * v L e i * (L.Can * (x ⬝ᵥ x - (q L i ⬝ᵥ x) ^ 2) + L.Cat * (q L i ⬝ᵥ x) ^ 2) := by
    unfold M
    dsimp only
    simp only [Matrix.add_mulVec, Matrix.sub_mulVec, Matrix.smul_mulVec, Matrix.one_mulVec, Matrix.vecMulVec_mulVec,
      dotProduct_add, dotProduct_sub, dotProduct_smul, smul_eq_mul, MulOpposite.smul_eq_mul_unop, op_smul_eq_smul]
    rw [dotProduct_comm x (q L i)]
    ring
  rw [e1]
  have h1 := mul_pos hm hxx
  have h2 := mul_nonneg h.Can (sub_nonneg.2 hd)
  have h3 := mul_nonneg h.Cat (sq_nonneg (q L i ⬝ᵥ x))
  have h4 := mul_nonneg (mul_nonneg hr hv) (add_nonneg h2 h3)
  linarith

/-- C104: with constant damping and masses nothing is undefined: there are accelerations and forces as the balance wants them. -/
theorem C104_defined (hw : Wired S) (hr : 0 ≤ S.sea.rho_w) (hl : ∀ i < S.nl, Massive (m.line i))
    (hM : ∀ p < S.np, 0 ≤ (m.point p).pointM) (hV : ∀ p < S.np, 0 ≤ (m.point p).pointV)
    (hC : ∀ p < S.np, 0 ≤ (m.point p).pointCa)
    (hh : ∀ p < S.np, S.kind p = .FREE → 0 < (m.point p).pointM ∨ S.att p ≠ []) :
    ∃ a c R, Sane S m a c R := by
  have hF : ∀ i j, ∃ f, i < S.nl → Fnet (m.line i) (lineEnv S m i) j = some f := by
    intro i j
    by_cases hi : i < S.nl
    swap
    · exact ⟨0, fun h => absurd h hi⟩
    have ht : ∀ j, ∃ t, Td (m.line i) j = some t := fun j => ⟨_, by unfold Td getNonlinearC; rw [(hl i hi).damp]; rfl⟩
    have ha : ∃ a, axial (m.line i) j = some a := by
      unfold axial
      obtain ⟨t, ht1⟩ := ht j
      obtain ⟨t', ht2⟩ := ht (j - 1)
      rw [ht1, ht2]
      split
      · exact ⟨_, rfl⟩
      · split <;> exact ⟨_, rfl⟩
    obtain ⟨a, ha⟩ := ha
    refine ⟨?_, fun _ => ?_⟩
    rotate_left
    · unfold Fnet
      simp only [ha]
      rfl
  choose f hf using hF
  have hP : ∀ p, ∃ P, p < S.np → loaded S m p = some P ∧ P.rd = (m.point p).rd ∧
      (P.doRHS S.sea.rho_w S.sea.g).2 = heft S m p := by
    intro p
    by_cases hp : p < S.np
    · obtain ⟨P, h1, h2, h3, -⟩ := loaded_eq (S := S) (m := m) f p fun a ha => hf _ _ (att_line hw hp ha)
      exact ⟨P, fun _ => ⟨h1, h2, h3⟩⟩
    · exact ⟨m.point p, fun h => absurd h hp⟩
  choose P hP using hP
  refine ⟨fun i j => (M (m.line i) (lineEnv S m i) j)⁻¹ *ᵥ f i j,
    fun p => ((P p).doRHS S.sea.rho_w S.sea.g).2⁻¹ *ᵥ ((P p).doRHS S.sea.rho_w S.sea.g).1,
    fun p => ((P p).doRHS S.sea.rho_w S.sea.g).1, ?_, ?_, ?_, ?_, ?_⟩
  · intro i hi j _ _
    unfold nodeRate
    rw [hf i j hi]
    rfl
  · intro p hp _
    unfold pointRate
    rw [(hP p hp).1, Option.map_some, (hP p hp).2.1]
  · intro p hp _
    unfold reported
    rw [(hP p hp).1]
    rfl
  · intro i hi j _ _
    exact unit_of_pos fun x hx => M_pos (hl i hi) (e := lineEnv S m i) hr j x hx
  · intro p hp hk
    apply unit_of_pos
    intro x hx
    have hxx := dot_self_pos hx
    have hsum : ∀ l : List (ℕ × EndPt), (∀ a ∈ l, a ∈ S.att p) →
        0 ≤ x ⬝ᵥ (l.map fun a => M (m.line a.1) (lineEnv S m a.1) (endNode (m.line a.1) a.2)).sum *ᵥ x ∧
        (l ≠ [] → 0 < x ⬝ᵥ (l.map fun a => M (m.line a.1) (lineEnv S m a.1) (endNode (m.line a.1) a.2)).sum *ᵥ x) := by
      intro l hl'
      induction l with
      | nil => simp
      | cons a l ih =>
        have h1 := M_pos (hl _ (att_line hw hp (hl' a List.mem_cons_self))) (e := lineEnv S m a.1) hr
          (endNode (m.line a.1) a.2) x hx
        have h2 := (ih fun b hb => hl' b (List.mem_cons_of_mem _ hb)).1
        rw [List.map_cons, List.sum_cons, Matrix.add_mulVec, dotProduct_add]
        exact ⟨by linarith, fun _ => by linarith⟩
    obtain ⟨h1, h2⟩ := hsum (S.att p) fun _ h => h
    unfold heft
    rw [Matrix.add_mulVec, dotProduct_add, Matrix.smul_mulVec, Matrix.one_mulVec, dotProduct_smul, smul_eq_mul]
    have h3 : 0 ≤ (m.point p).pointCa * (S.sea.rho_w * (m.point p).pointV) :=
      mul_nonneg (hC p hp) (mul_nonneg hr (hV p hp))
    have h4 := hM p hp
    rcases hh p hp hk with h | h
    · have := mul_pos (add_pos_of_pos_of_nonneg h h3) hxx
      linarith
    · have := mul_nonneg (add_nonneg h4 h3) hxx.le
      have := h2 h
      linarith

/-! ## Momentum -/

/-- Momentum of all lines and points with the water they carry. -/
noncomputable def momentum (S : System) (mo : Motion) (φ : ℕ → ℕ → ℝ) (t : ℝ) : V :=
  ∑ i ∈ range S.nl, ∑ j ∈ range ((mo.line i).N + 1), mass (mo.line i) S.sea (φ i) j • mo.y i j t +
    ∑ p ∈ range S.np, ((mo.point p).pointM + (mo.point p).pointCa * (S.sea.rho_w * (mo.point p).pointV)) • mo.py p t

/-- Angular momentum about the origin. -/
noncomputable def spin (S : System) (mo : Motion) (φ : ℕ → ℕ → ℝ) (t : ℝ) : V :=
  ∑ i ∈ range S.nl, ∑ j ∈ range ((mo.line i).N + 1), mass (mo.line i) S.sea (φ i) j • (mo.x i j t ⨯₃ mo.y i j t) +
    ∑ p ∈ range S.np, ((mo.point p).pointM + (mo.point p).pointCa * (S.sea.rho_w * (mo.point p).pointV)) •
      (mo.px p t ⨯₃ mo.py p t)

theorem M_iso {L : Line} {e : Env} (hN : 1 ≤ L.N) (φ : ℕ → ℝ) (hF : ∀ j < L.N, F L e j = φ j)
    (hiso : L.Can = L.Cat ∨ ∀ j < L.N, φ j = 0) (i : ℕ) (hi : i ≤ L.N) : M L e i = mass L e φ i • (1 : M3 ℝ) := by
  have hv : adjacent L.N (fun j => F L e j * L.V j) i = adjacent L.N (fun j => φ j * L.V j) i :=
    adjacent_congr hN hi (fun j hj => by rw [hF j hj])
  unfold M v mass
  dsimp only
  rw [hv]
  rcases hiso with hc | h0
  · rw [← hc, ← smul_add, sub_add_cancel, smul_smul, add_smul]
  · have : adjacent L.N (fun j => φ j * L.V j) i = 0 := by
      rw [adjacent_congr hN hi (g := fun _ => 0) (fun j hj => by rw [h0 j hj, zero_mul])]
      unfold adjacent
      simp
    rw [this]
    simp

theorem deriv_cross {x y : ℝ → V} {x' y' : V} {t : ℝ} (hx : HasDerivAt x x' t) (hy : HasDerivAt y y' t) :
    HasDerivAt (fun t => x t ⨯₃ y t) (x' ⨯₃ y t + x t ⨯₃ y') t := by
  have h : ∀ a b, HasDerivAt (fun t => x t a * y t b) (x' a * y t b + x t a * y' b) t := fun a b =>
    (hasDerivAt_pi.1 hx a).mul (hasDerivAt_pi.1 hy b)
  rw [hasDerivAt_pi]
  intro k
  fin_cases k
  · have := (h 1 2).sub (h 2 1)
    simp only [cross_apply]
    refine HasDerivAt.congr_deriv this ?_
    simp
    ring
  · have := (h 2 0).sub (h 0 2)
    simp only [cross_apply]
    refine HasDerivAt.congr_deriv this ?_
    simp
    ring
  · have := (h 0 1).sub (h 1 0)
    simp only [cross_apply]
    refine HasDerivAt.congr_deriv this ?_
    simp
    ring

/-- What the motion is asked for: masses that do not depend on the direction, and constant velocities of the points that are
not free. -/
structure Simple (S : System) (mo : Motion) (φ : ℕ → ℕ → ℝ) (t : ℝ) : Prop where
  obeys : Obeys S mo φ t
  joined : Joined S mo
  plain : Plain S (mo.mem t)
  iso : ∀ i < S.nl, (mo.line i).Can = (mo.line i).Cat ∨ ∀ j < (mo.line i).N, φ i j = 0
  pinned : ∀ i < S.nl, (mo.line i).endTypeA = .PINNED ∧ (mo.line i).endTypeB = .PINNED

variable {mo : Motion} {φ : ℕ → ℕ → ℝ} {t : ℝ}

theorem Simple.tied (h : Simple S mo φ t) (hw : Wired S) : Tied S (mo.mem t) := by
  intro p hp a ha
  have hl := att_line hw hp ha
  obtain ⟨h1, h2⟩ := h.joined.ends p hp a ha
  have hp1 := h.pinned a.1 hl
  obtain ⟨i, z⟩ := a
  cases z
  · exact Prod.ext (congrFun h1 t) (Prod.ext (congrFun h2 t) hp1.2)
  · exact Prod.ext (congrFun h1 t) (Prod.ext (congrFun h2 t) hp1.1)

open Classical in
/-- C104: momentum and angular momentum of the whole system change by the loads less what is given back for the points that are
not free, if the carried water is the same in all directions (or there is none), and as much of it as before. -/
theorem C104_momentum (hw : Wired S) (hS : Simple S mo φ t) {a : ℕ → ℕ → V} {c R : ℕ → V}
    (hs : Sane S (mo.mem t) a c R) :
    HasDerivAt (momentum S mo φ)
      (∑ i ∈ range S.nl, ∑ j ∈ range ((mo.line i).N + 1), load ((mo.mem t).line i) (lineEnv S (mo.mem t) i) j +
        ∑ p ∈ range S.np, own S (mo.mem t) p - ∑ p ∈ range S.np with S.kind p ≠ .FREE, R p) t ∧
    HasDerivAt (spin S mo φ)
      (∑ i ∈ range S.nl, ∑ j ∈ range ((mo.line i).N + 1),
          mo.x i j t ⨯₃ load ((mo.mem t).line i) (lineEnv S (mo.mem t) i) j +
        ∑ p ∈ range S.np, mo.px p t ⨯₃ own S (mo.mem t) p -
        ∑ p ∈ range S.np with S.kind p ≠ .FREE, mo.px p t ⨯₃ R p) t := by
  have ho := hS.obeys
  have hj := hS.joined
  have ht := hS.tied hw
  have hpl := hS.plain
  let μ : ℕ → ℕ → ℝ := fun i j => mass (mo.line i) S.sea (φ i) j
  let ν : ℕ → ℝ := fun p => (mo.point p).pointM + (mo.point p).pointCa * (S.sea.rho_w * (mo.point p).pointV)
  have hpa : ∀ p < S.np, HasDerivAt (mo.py p) (deriv (mo.py p) t) t := by
    intro p hp
    by_cases hk : S.kind p = .FREE
    · obtain ⟨k, -, h⟩ := ho.free p hp hk
      exact h.differentiableAt.hasDerivAt
    · have : mo.py p = fun _ => mo.py p 0 := funext fun t => hj.led p hp hk t 0
      rw [this]
      exact (differentiableAt_const _).hasDerivAt
  have hfree : ∀ p < S.np, S.kind p = .FREE → deriv (mo.py p) t = c p := by
    intro p hp hk
    obtain ⟨k, h1, h2⟩ := ho.free p hp hk
    have h3 := hs.point p hp hk
    rw [h1] at h3
    rw [h2.deriv, Option.some.inj h3]
  have hheld : ∀ p < S.np, S.kind p ≠ .FREE → deriv (mo.py p) t = 0 := by
    intro p hp hk
    have : mo.py p = fun _ => mo.py p 0 := funext fun t => hj.led p hp hk t 0
    rw [this, deriv_const]
  have hinner : ∀ i < S.nl, ∀ j, 1 ≤ j → j < (mo.line i).N → HasDerivAt (mo.y i j) (a i j) t := by
    intro i hi j h0 hN
    obtain ⟨k, h1, h2⟩ := ho.inner i hi j h0 hN
    have h3 := hs.node i hi j h0 hN
    rw [h1] at h3
    rw [Option.some.inj h3] at h2
    exact h2
  have hends : ∀ p < S.np, ∀ b ∈ S.att p, mo.y b.1 (endNode (mo.line b.1) b.2) = mo.py p := fun p hp b hb =>
    (hj.ends p hp b hb).2
  have hna : ∀ i < S.nl, ∀ j ≤ (mo.line i).N, HasDerivAt (mo.y i j) (deriv (mo.y i j) t) t := by
    intro i hi j hjN
    by_cases h0 : j = 0
    · obtain ⟨p, hp, ha⟩ := end_point hw hi .BOTTOM
      have := hends p hp _ ha
      rw [h0]
      show HasDerivAt (mo.y i (endNode (mo.line i) .BOTTOM)) (deriv (mo.y i (endNode (mo.line i) .BOTTOM)) t) t
      rw [this]
      exact hpa p hp
    · by_cases hN : j = (mo.line i).N
      · obtain ⟨p, hp, ha⟩ := end_point hw hi .TOP
        have := hends p hp _ ha
        rw [hN]
        show HasDerivAt (mo.y i (endNode (mo.line i) .TOP)) (deriv (mo.y i (endNode (mo.line i) .TOP)) t) t
        rw [this]
        exact hpa p hp
      · exact (hinner i hi j (by omega) (by omega)).differentiableAt.hasDerivAt
  have hM : ∀ i < S.nl, ∀ j ≤ (mo.line i).N, M ((mo.mem t).line i) (lineEnv S (mo.mem t) i) j = μ i j • (1 : M3 ℝ) := by
    intro i hi j hjN
    exact M_iso (L := (mo.mem t).line i) (hpl i).1 (φ i) (ho.sub i hi) (hS.iso i hi) j hjN
  have hheft : ∀ p < S.np, heft S (mo.mem t) p =
      (((S.att p).map fun b => μ b.1 (endNode (mo.line b.1) b.2)).sum + ν p) • (1 : M3 ℝ) := by
    intro p hp
    unfold heft
    have : ((S.att p).map fun b => M ((mo.mem t).line b.1) (lineEnv S (mo.mem t) b.1) (endNode ((mo.mem t).line b.1) b.2)) =
        (S.att p).map fun b => μ b.1 (endNode (mo.line b.1) b.2) • (1 : M3 ℝ) := by
      apply List.map_congr_left
      intro b hb
      have hl := att_line hw hp hb
      obtain ⟨i, z⟩ := b
      cases z
      · exact hM i hl _ le_rfl
      · exact hM i hl 0 (Nat.zero_le _)
    rw [this, add_smul (List.sum _)]
    congr 1
    generalize S.att p = l
    induction l with
    | nil => simp
    | cons b l ih => rw [List.map_cons, List.sum_cons, ih, List.map_cons, List.sum_cons, add_smul]
  have key : ∀ k : V → V →ₗ[ℝ] V,
      ∑ i ∈ range S.nl, ∑ j ∈ range ((mo.line i).N + 1), μ i j • k (mo.x i j t) (deriv (mo.y i j) t) +
        ∑ p ∈ range S.np, ν p • k (mo.px p t) (deriv (mo.py p) t) =
      ∑ i ∈ range S.nl, ∑ j ∈ Ico 1 (mo.line i).N,
          k (mo.x i j t) (M ((mo.mem t).line i) (lineEnv S (mo.mem t) i) j *ᵥ a i j) +
        ∑ p ∈ range S.np with S.kind p = .FREE, k (mo.px p t) (heft S (mo.mem t) p *ᵥ c p) := by
    intro k
    let G : ℕ × EndPt → V := fun b => μ b.1 (endNode (mo.line b.1) b.2) •
      k (mo.x b.1 (endNode (mo.line b.1) b.2) t) (deriv (mo.y b.1 (endNode (mo.line b.1) b.2)) t)
    have hG : ∀ p < S.np, ((S.att p).map G).sum =
        ((S.att p).map fun b => μ b.1 (endNode (mo.line b.1) b.2)).sum • k (mo.px p t) (deriv (mo.py p) t) := by
      intro p hp
      have : ∀ b ∈ S.att p, G b = μ b.1 (endNode (mo.line b.1) b.2) • k (mo.px p t) (deriv (mo.py p) t) := by
        intro b hb
        show _ • k (mo.x b.1 (endNode (mo.line b.1) b.2) t) (deriv (mo.y b.1 (endNode (mo.line b.1) b.2)) t) = _
        rw [hends p hp b hb, (hj.ends p hp b hb).1]
      rw [List.map_congr_left this]
      generalize S.att p = l
      induction l with
      | nil => simp
      | cons b l ih => rw [List.map_cons, List.sum_cons, ih, List.map_cons, List.sum_cons, add_smul]
    have h1 : ∀ i ∈ range S.nl, ∑ j ∈ range ((mo.line i).N + 1), μ i j • k (mo.x i j t) (deriv (mo.y i j) t) =
        (G (i, .BOTTOM) + G (i, .TOP)) + ∑ j ∈ Ico 1 (mo.line i).N,
          k (mo.x i j t) (M ((mo.mem t).line i) (lineEnv S (mo.mem t) i) j *ᵥ a i j) := by
      intro i hi
      have hi' := mem_range.1 hi
      have hN : 1 ≤ (mo.line i).N := (hpl i).1
      have h2 : ∀ j ∈ Ico 1 (mo.line i).N, k (mo.x i j t) (M ((mo.mem t).line i) (lineEnv S (mo.mem t) i) j *ᵥ a i j) =
          μ i j • k (mo.x i j t) (deriv (mo.y i j) t) := by
        intro j hj'
        rw [mem_Ico] at hj'
        rw [hM i hi' j (by omega), Matrix.smul_mulVec, Matrix.one_mulVec, map_smul,
          (hinner i hi' j (by omega) (by omega)).deriv]
      rw [sum_congr rfl h2, range_eq_Ico, sum_eq_sum_Ico_succ_bot (Nat.succ_pos _), zero_add, sum_Ico_succ_top hN]
      show μ i 0 • k (mo.x i 0 t) (deriv (mo.y i 0) t) + (_ + μ i (mo.line i).N • k (mo.x i (mo.line i).N t) (deriv (mo.y i (mo.line i).N) t)) =
        μ i 0 • k (mo.x i 0 t) (deriv (mo.y i 0) t) + μ i (mo.line i).N • k (mo.x i (mo.line i).N t) (deriv (mo.y i (mo.line i).N) t) + _
      abel
    have h3 : ∑ p ∈ range S.np with S.kind p = .FREE, k (mo.px p t) (heft S (mo.mem t) p *ᵥ c p) =
        ∑ p ∈ range S.np, (((S.att p).map G).sum + ν p • k (mo.px p t) (deriv (mo.py p) t)) := by
      rw [sum_filter]
      apply sum_congr rfl
      intro p hp
      have hp' := mem_range.1 hp
      rw [hG p hp', ← add_smul]
      by_cases hk : S.kind p = .FREE
      · rw [if_pos hk, hheft p hp', Matrix.smul_mulVec, Matrix.one_mulVec, map_smul, hfree p hp' hk]
      · rw [if_neg hk, hheld p hp' hk, map_zero, smul_zero]
    rw [sum_congr rfl h1, sum_add_distrib, sum_ends hw G, h3, sum_add_distrib]
    abel
  constructor
  · have hd : HasDerivAt (momentum S mo φ) (∑ i ∈ range S.nl, ∑ j ∈ range ((mo.line i).N + 1), μ i j • deriv (mo.y i j) t +
        ∑ p ∈ range S.np, ν p • deriv (mo.py p) t) t := by
      apply HasDerivAt.add
      · apply HasDerivAt.fun_sum
        intro i hi
        apply HasDerivAt.fun_sum
        intro j hj'
        exact (hna i (mem_range.1 hi) j (by have := mem_range.1 hj'; omega)).fun_const_smul _
      · apply HasDerivAt.fun_sum
        intro p hp
        exact (hpa p (mem_range.1 hp)).fun_const_smul _
    refine hd.congr_deriv ?_
    have h1 := key fun _ => LinearMap.id
    have h2 := C104_force hw ht hpl hs
    simp only [LinearMap.id_apply] at h1
    rw [h1, h2]
    exact (sub_sub_cancel _ _).symm
  · have hd : HasDerivAt (spin S mo φ)
        (∑ i ∈ range S.nl, ∑ j ∈ range ((mo.line i).N + 1), μ i j • (mo.x i j t ⨯₃ deriv (mo.y i j) t) +
        ∑ p ∈ range S.np, ν p • (mo.px p t ⨯₃ deriv (mo.py p) t)) t := by
      apply HasDerivAt.add
      · apply HasDerivAt.fun_sum
        intro i hi
        apply HasDerivAt.fun_sum
        intro j hj'
        have hj'' : j ≤ (mo.line i).N := by have := mem_range.1 hj'; omega
        have := deriv_cross (ho.node i (mem_range.1 hi) j hj'') (hna i (mem_range.1 hi) j hj'')
        rw [cross_self, zero_add] at this
        exact this.fun_const_smul _
      · apply HasDerivAt.fun_sum
        intro p hp
        have := deriv_cross (ho.point p (mem_range.1 hp)) (hpa p (mem_range.1 hp))
        rw [cross_self, zero_add] at this
        exact this.fun_const_smul _
    refine hd.congr_deriv ?_
    have h1 := key fun x => crossL x
    have h2 := C104_moment hw ht hpl hs (fun i hi _ j hj' => ho.long i hi j hj')
    change ∑ i ∈ range S.nl, ∑ j ∈ range ((mo.line i).N + 1), μ i j • (mo.x i j t ⨯₃ deriv (mo.y i j) t) +
        ∑ p ∈ range S.np, ν p • (mo.px p t ⨯₃ deriv (mo.py p) t) = _ at h1
    change ∑ p ∈ range S.np with S.kind p ≠ .FREE, mo.px p t ⨯₃ R p = _ at h2
    rw [h1, h2]
    exact (sub_sub_cancel _ _).symm

end

/-! ## Example: the slack chain of C102, falling from a held point -/

theorem chain_massive (t : ℝ) : ∀ i < drop.nl, Massive ((falling.mem t).line i) := by
  intro i _
  have := Real.pi_pos
  constructor <;> simp [falling, Motion.mem, along, chain]
  positivity

theorem falling_simple (t : ℝ) (h0 : 0 < t) (h1 : t < 1) : Simple drop falling (fun _ _ => 0) t where
  obeys := fall_obeys t h0 h1
  joined := drop_joined
  plain _ := ⟨le_rfl, fun _ => rfl⟩
  iso _ _ := Or.inr fun _ _ => rfl
  pinned _ _ := ⟨rfl, rfl⟩

theorem falling_sane (t : ℝ) : ∃ a c R, Sane drop (falling.mem t) a c R := by
  refine C104_defined drop_wired (by simp [drop]) (chain_massive t) ?_ ?_ ?_ ?_
  · intro p _; simp [falling, Motion.mem, Energy.clump]
  · intro p _; simp [falling, Motion.mem, Energy.clump]
  · intro p _; simp [falling, Motion.mem, Energy.clump]
  · intro p _ _; left; simp [falling, Motion.mem, Energy.clump]

/-- All the hypotheses hold at once, after any number of steps of any integrator. -/
example (t : ℝ) (h0 : 0 < t) (h1 : t < 1) (x : ℕ → V × V) (t' tl : ℝ) (e : State) :
    Tied drop (update drop t' tl e (initiate drop x (falling.mem t))) ∧ ∃ a c R, Sane drop (falling.mem t) a c R ∧
      HasDerivAt (momentum drop falling fun _ _ => 0) (∑ i ∈ range drop.nl, ∑ j ∈ range ((falling.line i).N + 1),
        load ((falling.mem t).line i) (lineEnv drop (falling.mem t) i) j + ∑ p ∈ range drop.np, own drop (falling.mem t) p -
        R 0) t := by
  have hs := falling_simple t h0 h1
  constructor
  · refine (C104_tied (m0 := falling.mem t) drop_wired ?_ hs.plain (hs.tied drop_wired)
      (.placed _ _ _ _ (.given _ _ .start))).2
    intro p hp
    change 2 ≤ p at hp
    simp [drop, show p ≠ 0 by omega, show p ≠ 1 by omega]
  · obtain ⟨a, c, R, h⟩ := falling_sane t
    refine ⟨a, c, R, h, ?_⟩
    have := (C104_momentum drop_wired hs h).1
    have e1 : ({p ∈ range drop.np | drop.kind p ≠ .FREE} : Finset ℕ) = {0} := by
      ext p
      simp only [mem_filter, mem_range, mem_singleton]
      constructor
      · rintro ⟨-, hk⟩
        by_contra hp
        exact hk (by simp [drop, hp])
      · rintro rfl
        exact ⟨by simp [drop], by simp [drop]⟩
    have e2 : (∑ p ∈ range drop.np with drop.kind p ≠ .FREE, R p) = R 0 := by
      simp only [e1, sum_singleton]
    convert this using 2
    rw [← e2]

end MD.Balance
