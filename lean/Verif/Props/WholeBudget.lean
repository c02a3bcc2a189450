import Verif.Lemmas.Budget

/-!
# C113: the budget of forces and moments of systems with bodies and rods
-/

set_option linter.unusedSimpArgs false
set_option linter.unusedVariables false
set_option linter.unusedSectionVars false

namespace MD.Whole

open MD.Mooring Matrix MD.Mat MD.Rot Finset
open MD.Moored (Kind)

variable {G : Gear} {m : Objects}

/-! ## Lines -/

open Classical in
/-- The moments of the net forces of a line are those of its loads and of its clamped ends. -/
theorem line_moment (k : ℕ) (hN : 1 ≤ (G.line k).N)
    (hl : isEI (G.lineAt m k) → ∀ j < (G.line k).N, 100 * eps / 2 < lstr (G.lineAt m k) j) (f : ℕ → V)
    (hf : ∀ j ≤ (G.line k).N, Fnet (G.lineAt m k) (G.lineSea m k) j = some (f j)) :
    ∑ j ∈ range ((G.line k).N + 1), (m.line k).s.r j ⨯₃ f j =
      ∑ j ∈ range ((G.line k).N + 1), (m.line k).s.r j ⨯₃ G.lineLoad m k j + G.clamped m k := by
  have hf' : ∀ j ≤ (G.lineAt m k).N, Fnet (G.lineAt m k) (G.lineSea m k) j = some (f j) := hf
  have hN' : 1 ≤ (G.lineAt m k).N := hN
  have hl' : isEI (G.lineAt m k) → ∀ j < (G.lineAt m k).N, 100 * eps / 2 < lstr (G.lineAt m k) j := hl
  show ∑ j ∈ range ((G.lineAt m k).N + 1), (G.lineAt m k).r j ⨯₃ f j = ∑ j ∈ range ((G.lineAt m k).N + 1), (G.lineAt m k).r j ⨯₃ _ + _
  unfold Gear.lineLoad Gear.clamped
  dsimp only
  generalize G.lineAt m k = L at *
  generalize G.lineSea m k = e at *
  have h1 : ∀ i ≤ L.N, ∃ a, axial L i = some a ∧ f i = a + (Balance.load L e i + Pb L e i) + Bs L i := by
    intro i hi
    have h := hf' i hi
    unfold Fnet at h
    cases ha : axial L i with
    | none => rw [ha] at h; exact absurd h (by simp)
    | some a =>
      rw [ha] at h
      simp only [Option.bind_eq_bind, Option.bind_some, Option.pure_def, Option.some.injEq] at h
      exact ⟨a, rfl, by rw [← h]; unfold Balance.load; module⟩
  choose! a ha using h1
  have h2 := C29_tension_damping_moment L hN' a (fun i hi => (ha i hi).1)
  have h3 : ∑ j ∈ range (L.N + 1), L.r j ⨯₃ Bs L j =
      if isEI L then (if L.endTypeB = .CANTILEVERED then endMoment L L.N else 0) - (if L.endTypeA = .CANTILEVERED then endMoment L 0 else 0) else 0 := by
    by_cases hEI : isEI L
    · rw [C29_bending_moment L hN' hEI (hl' hEI), if_pos hEI]
    · rw [if_neg hEI]
      apply sum_eq_zero
      intro j _
      unfold Bs
      rw [if_neg hEI, map_zero]
  rw [sum_congr rfl (fun i hi => by rw [(ha i (by have := mem_range.1 hi; omega)).2, map_add, map_add]),
    sum_add_distrib, sum_add_distrib, h2, h3, zero_add]

theorem line_force (k : ℕ) (hN : 1 ≤ (G.line k).N) (f : ℕ → V)
    (hf : ∀ j ≤ (G.line k).N, Fnet (G.lineAt m k) (G.lineSea m k) j = some (f j)) :
    ∑ j ∈ range ((G.line k).N + 1), f j = ∑ j ∈ range ((G.line k).N + 1), G.lineLoad m k j := by
  have h := C29_net_force_pressure (G.lineAt m k) (G.lineSea m k) hN f hf
  unfold Gear.lineLoad Balance.load
  rw [sum_add_distrib]
  exact h.trans (add_comm _ _)

/-- What is not used up by the inner nodes of a line is at its ends; `T` is what is taken of a force at a place. -/
theorem line_ends (hs : G.Sane m) {m' : Objects} (hT : Together G.code m m') (T : V → V →ₗ[ℝ] V) (X : ℕ → V)
    (hX : ∀ k < G.nl, ∀ f : ℕ → V, (∀ j ≤ (G.line k).N, Fnet (G.lineAt m k) (G.lineSea m k) j = some (f j)) →
      ∑ j ∈ range ((G.line k).N + 1), T ((m.line k).s.r j) (f j) = X k) (k : ℕ) (hk : k < G.nl) :
    T (G.place m (k, .BOTTOM)) (pull m' (k, .BOTTOM)) + T (G.place m (k, .TOP)) (pull m' (k, .TOP)) =
      X k - ∑ j ∈ Ico 1 (G.line k).N, T ((m.line k).s.r j) (M (G.lineAt m k) (G.lineSea m k) j *ᵥ G.nodeAcc m k j) := by
  have hN := hs.segs k hk
  have h1 : ∀ j, ∃ f, j ≤ (G.line k).N → Fnet (G.lineAt m k) (G.lineSea m k) j = some f := by
    intro j
    by_cases hj : j ≤ (G.line k).N
    · obtain ⟨f, hf⟩ := Option.ne_none_iff_exists'.1 (hs.node k hk j hj)
      exact ⟨f, fun _ => hf⟩
    · exact ⟨0, fun h => absurd h hj⟩
  choose f hf using h1
  have e := hX k hk f hf
  rw [range_eq_Ico, sum_eq_sum_Ico_succ_bot (Nat.succ_pos _), zero_add, sum_Ico_succ_top hN] at e
  have e0 : pull m' (k, .BOTTOM) = f 0 := by
    have h := (hs.stuff hT (a := (k, .BOTTOM)) hk).2
    change Fnet (G.lineAt m k) (G.lineSea m k) 0 = _ at h
    rw [hf 0 (Nat.zero_le _)] at h
    exact (Option.some.inj h).symm
  have eN : pull m' (k, .TOP) = f (G.line k).N := by
    have h := (hs.stuff hT (a := (k, .TOP)) hk).2
    change Fnet (G.lineAt m k) (G.lineSea m k) (G.line k).N = _ at h
    rw [hf _ le_rfl] at h
    exact (Option.some.inj h).symm
  have ei : ∑ j ∈ Ico 1 (G.line k).N, T ((m.line k).s.r j) (M (G.lineAt m k) (G.lineSea m k) j *ᵥ G.nodeAcc m k j) =
      ∑ j ∈ Ico 1 (G.line k).N, T ((m.line k).s.r j) (f j) := by
    apply sum_congr rfl
    intro j hj
    rw [mem_Ico] at hj
    have ea : G.nodeAcc m k j = (M (G.lineAt m k) (G.lineSea m k) j)⁻¹ *ᵥ f j := by
      show (if k < G.nl ∧ j - 1 + 1 < (G.line k).N then _ else (0 : V × V)).2 = _
      rw [if_pos ⟨hk, by omega⟩]
      show (M (G.lineAt m k) (G.lineSea m k) (j - 1 + 1))⁻¹ *ᵥ ((Fnet (G.lineAt m k) (G.lineSea m k) (j - 1 + 1)).getD 0) = _
      rw [Nat.sub_add_cancel hj.1, hf j hj.2.le, Option.getD_some]
    rw [ea, Balance.solve (hs.mass k hk j hj.1 hj.2)]
  rw [e0, eN, ei, ← e]
  show T ((m.line k).s.r 0) _ + T ((m.line k).s.r (G.line k).N) _ = _
  abel

/-! ## Forces -/

open Classical in
/-- C113, forces: what bodies, and points and rods which are on none, are left with to be accelerated or to be held, and the pull of the lines
at all that is fixed, adds up to all that acts from outside on lines, points, rods and bodies, less mass times acceleration of the nodes of the
lines and what keeps the masses on turning bodies on their circles. -/
theorem C113_force_partial (h : G.Fitted) (hs : G.Sane m) :
    ∑ b ∈ range G.nb with BodyCounts G.code b, (bodyGets (evaluate G.code m) b).1 +
      ∑ i ∈ range G.nr with RodCounts G.code i ∧ ¬ G.RodOnBody i, (rodGets (evaluate G.code m) i).1 +
      ∑ i ∈ range G.np with PointCounts G.code i ∧ ¬ G.PointOnBody i, G.pointGets (evaluate G.code m) i +
      ∑ i ∈ range G.nr with ¬ RodCounts G.code i,
        (((G.endsA i).map (pull (evaluate G.code m))).sum + ((G.endsB i).map (pull (evaluate G.code m))).sum) +
      ∑ i ∈ range G.np with ¬ PointCounts G.code i, ((G.ends i).map (pull (evaluate G.code m))).sum =
    ∑ k ∈ range G.nl, (∑ j ∈ range ((G.line k).N + 1), G.lineLoad m k j -
        ∑ j ∈ Ico 1 (G.line k).N, M (G.lineAt m k) (G.lineSea m k) j *ᵥ G.nodeAcc m k j) +
      ∑ b ∈ range G.nb with BodyCounts G.code b, (G.bodyLoad m b - G.turning m b) +
      ∑ i ∈ range G.nr with RodCounts G.code i, ∑ j ∈ range ((G.rod i).N + 1), G.rodLoad m i j +
      ∑ i ∈ range G.np with PointCounts G.code i, G.pointLoad m i := by
  have hT := C111_forces h.held m
  rw [h.budget (pull (evaluate G.code m)) (fun i => G.pointGets (evaluate G.code m) i) (fun i => (rodGets (evaluate G.code m) i).1)
    (fun b => (bodyGets (evaluate G.code m) b).1) (fun i => G.pointLoad m i) (fun i => ∑ j ∈ range ((G.rod i).N + 1), G.rodLoad m i j)
    (fun b => G.bodyLoad m b - G.turning m b) (fun i _ hc => pointGets_eq h hs hT i hc) (fun i hi hc => (rodGets_eq h hs hT i hi hc).1)
    (fun b hc => (bodyGets_eq h hs hT b hc).1)]
  congr 3
  apply sum_congr rfl
  intro k hk
  exact line_ends hs hT (fun _ => LinearMap.id) _ (fun k hk f hf => line_force k (hs.segs k hk) f hf) k (mem_range.1 hk)

/-! ## Moments -/

theorem sum_cross {α : Type} (l : List α) (x : V) (f : α → V) : x ⨯₃ (l.map f).sum = (l.map fun a => x ⨯₃ f a).sum := by
  rw [map_list_sum, List.map_map]
  rfl

theorem cross_ends (l : List (ℕ × EndPt)) (x : V) (f : ℕ × EndPt → V) (hx : ∀ a ∈ l, G.place m a = x) :
    x ⨯₃ (l.map f).sum = (l.map fun a => G.place m a ⨯₃ f a).sum := by
  rw [sum_cross]
  congr 1
  apply List.map_congr_left
  intro a ha
  rw [hx a ha]

theorem rod_end (hc : Connected G.code m) (i : ℕ) (hi : i < G.nr) (hq : 0 < (G.rod i).N → (m.rod i).q = orMat (m.rod i).quat *ᵥ G.q0 i) :
    Rods.r (G.rodAt m i) (G.rod i).N = (m.rod i).r (G.rod i).N := by
  unfold Rods.r
  dsimp only
  rw [show (G.rodAt m i).N = (G.rod i).N from rfl]
  by_cases h0 : (G.rod i).N = 0
  · rw [if_pos h0, h0]
    rfl
  · have h1 := ((hc.rodHolds i hi).2.2.1 (Nat.pos_of_ne_zero h0)).1
    rw [if_neg h0, if_neg h0, if_pos rfl]
    show (m.rod i).r 0 + (G.rod i).UnstrLen • (m.rod i).q = _
    rw [hq (Nat.pos_of_ne_zero h0), (hc.rodHolds i hi).1]
    exact h1.symm

open Classical in
/-- C113, moments about the origin: the same, but for the moments of stiff lines at the ends where they are clamped: these are given to no rod. -/
theorem C113_moment_partial (h : G.Fitted) (hs : G.Sane m) (hc : Connected G.code m)
    (hq : ∀ i < G.nr, 0 < (G.rod i).N → (m.rod i).q = orMat (m.rod i).quat *ᵥ G.q0 i)
    (hl : ∀ k < G.nl, isEI (G.lineAt m k) → ∀ j < (G.line k).N, 100 * eps / 2 < lstr (G.lineAt m k) j) :
    ∑ b ∈ range G.nb with BodyCounts G.code b,
        ((m.body b).pos ⨯₃ (bodyGets (evaluate G.code m) b).1 + (bodyGets (evaluate G.code m) b).2.1) +
      ∑ i ∈ range G.nr with RodCounts G.code i ∧ ¬ G.RodOnBody i,
        ((m.rod i).r 0 ⨯₃ (rodGets (evaluate G.code m) i).1 + (rodGets (evaluate G.code m) i).2.1) +
      ∑ i ∈ range G.np with PointCounts G.code i ∧ ¬ G.PointOnBody i, (m.point i).r ⨯₃ G.pointGets (evaluate G.code m) i +
      ∑ i ∈ range G.nr with ¬ RodCounts G.code i, (((G.endsA i).map fun a => G.place m a ⨯₃ pull (evaluate G.code m) a).sum +
        ((G.endsB i).map fun a => G.place m a ⨯₃ pull (evaluate G.code m) a).sum) +
      ∑ i ∈ range G.np with ¬ PointCounts G.code i, ((G.ends i).map fun a => G.place m a ⨯₃ pull (evaluate G.code m) a).sum =
    ∑ k ∈ range G.nl, (∑ j ∈ range ((G.line k).N + 1), (m.line k).s.r j ⨯₃ G.lineLoad m k j + G.clamped m k -
        ∑ j ∈ Ico 1 (G.line k).N, (m.line k).s.r j ⨯₃ (M (G.lineAt m k) (G.lineSea m k) j *ᵥ G.nodeAcc m k j)) +
      ∑ b ∈ range G.nb with BodyCounts G.code b, (G.bodyTorque m b - (m.body b).pos ⨯₃ G.turning m b) +
      ∑ i ∈ range G.nr with RodCounts G.code i,
        (∑ j ∈ range ((G.rod i).N + 1), Rods.r (G.rodAt m i) j ⨯₃ G.rodLoad m i j + G.rodTorque m i) +
      ∑ i ∈ range G.np with PointCounts G.code i, (m.point i).r ⨯₃ G.pointLoad m i := by
  have hT := C111_forces h.held m
  generalize evaluate G.code m = m' at hT ⊢
  rw [h.budget (fun a => G.place m a ⨯₃ pull m' a) (fun i => (m.point i).r ⨯₃ G.pointGets m' i)
    (fun i => (m.rod i).r 0 ⨯₃ (rodGets m' i).1 + (rodGets m' i).2.1)
    (fun b => (m.body b).pos ⨯₃ (bodyGets m' b).1 + (bodyGets m' b).2.1) (fun i => (m.point i).r ⨯₃ G.pointLoad m i)
    (fun i => ∑ j ∈ range ((G.rod i).N + 1), Rods.r (G.rodAt m i) j ⨯₃ G.rodLoad m i j + G.rodTorque m i)
    (fun b => G.bodyTorque m b - (m.body b).pos ⨯₃ G.turning m b)]
  · congr 3
    apply sum_congr rfl
    intro k hk
    exact line_ends hs hT (fun x => crossL x) _ (fun k hk f hf => line_moment k (hs.segs k hk) (hl k hk) f hf) k (mem_range.1 hk)
  · intro i hi hC
    rw [pointGets_eq h hs hT i hC, map_add, cross_ends (G := G) (m := m)]
    intro a ha
    obtain ⟨d, hd⟩ := hc.holds i hi a ha
    exact congrArg Prod.fst hd
  · intro i hi hC
    obtain ⟨e1, e2⟩ := rodGets_eq h hs hT i hi hC
    have eN := rod_end hc i hi (hq i hi)
    rw [e1, e2]
    unfold Gear.rodForce Gear.rodMoment
    rw [eN, ← cross_ends (G := G) (m := m) (G.endsA i) ((m.rod i).r 0), ← cross_ends (G := G) (m := m) (G.endsB i) ((m.rod i).r (G.rod i).N)]
    · have e3 : ∑ j ∈ range ((G.rod i).N + 1), (Rods.r (G.rodAt m i) j - (m.rod i).r 0) ⨯₃ G.rodLoad m i j =
          ∑ j ∈ range ((G.rod i).N + 1), Rods.r (G.rodAt m i) j ⨯₃ G.rodLoad m i j -
            (m.rod i).r 0 ⨯₃ ∑ j ∈ range ((G.rod i).N + 1), G.rodLoad m i j := by
        rw [map_sum, ← sum_sub_distrib]
        apply sum_congr rfl
        intro j _
        rw [map_sub, LinearMap.sub_apply]
      rw [e3, map_add, map_add, map_sub, LinearMap.sub_apply]
      abel
    · intro a ha
      obtain ⟨d, hd, -⟩ := (hc.rodHolds i hi).2.2.2.2 a ha
      exact congrArg Prod.fst hd
    · intro a ha
      obtain ⟨d, hd, -⟩ := (hc.rodHolds i hi).2.2.2.1 a ha
      exact congrArg Prod.fst hd
  · intro b hC
    obtain ⟨e1, e2⟩ := bodyGets_eq h hs hT b hC
    rw [e1, e2]
    have sl : ∀ {α : Type} (l : List α) (f g : α → V), (l.map f).sum + (l.map g).sum = (l.map fun a => f a + g a).sum := by
      intro α l f g
      induction l with
      | nil => simp
      | cons a l ih => simp only [List.map_cons, List.sum_cons, ← ih]; abel
    have f1 : (m.body b).pos ⨯₃ ((G.pts (some b)).map fun a => G.pointGets m' a.1).sum +
        ((G.pts (some b)).map fun a => ((m.point a.1).r - (m.body b).pos) ⨯₃ G.pointGets m' a.1).sum =
        ((G.pts (some b)).map fun a => (m.point a.1).r ⨯₃ G.pointGets m' a.1).sum := by
      rw [sum_cross, sl]
      congr 1
      apply List.map_congr_left
      intro a _
      rw [map_sub, LinearMap.sub_apply, add_sub_cancel]
    have f2 : (m.body b).pos ⨯₃ ((G.rods (some b)).map fun a => (rodGets m' a.1).1).sum +
        ((G.rods (some b)).map fun a => (rodGets m' a.1).2.1 + ((m.rod a.1).r 0 - (m.body b).pos) ⨯₃ (rodGets m' a.1).1).sum =
        ((G.rods (some b)).map fun a => (m.rod a.1).r 0 ⨯₃ (rodGets m' a.1).1 + (rodGets m' a.1).2.1).sum := by
      rw [sum_cross, sl]
      congr 1
      apply List.map_congr_left
      intro a _
      rw [map_sub, LinearMap.sub_apply]
      abel
    rw [← f1, ← f2]
    unfold Gear.bodyTorque Gear.bodyLoad
    simp only [map_add, map_sub, LinearMap.add_apply]
    abel

/-- What is missing in the moments: stiff as a line may be, and clamped to a rod, what it gives to the rod is a force without a moment, in
every state (`endMomentA` and `endMomentB` are written nowhere but in the initialization). -/
theorem C113_clamped_moment_false (k : ℕ) (p : EndPt) (x : V × V × M3 ℝ) (hk : k < G.nl) (h : G.Fitted)
    (hx : ((evaluate G.code m).line k).F.stuff p = some x) : x.2.1 = 0 := by
  rw [(C111_forces h.held m).line k hk] at hx
  change getEndStuff (G.lineAt m k) (G.lineSea m k) p = some x at hx
  unfold getEndStuff at hx
  cases p
  · cases hf : Fnet (G.lineAt m k) (G.lineSea m k) (G.lineAt m k).N with
    | none => rw [hf] at hx; cases hx
    | some f => rw [hf] at hx; rw [← Option.some.inj hx]
  · cases hf : Fnet (G.lineAt m k) (G.lineSea m k) 0 with
    | none => rw [hf] at hx; cases hx
    | some f => rw [hf] at hx; rw [← Option.some.inj hx]

/-! ## What becomes of it -/

theorem solve_eq (x : V × V × M6 ℝ) (hx : IsUnit x.2.2.det) : x.2.2 *ᵥ Sum.elim (Gear.solve x).1 (Gear.solve x).2 = Sum.elim x.1 x.2.1 := by
  unfold Gear.solve
  dsimp only
  rw [Sum.elim_comp_inl_inr, Matrix.mulVec_mulVec, Matrix.mul_nonsing_inv _ hx, Matrix.one_mulVec]

/-- C113: what a free body is left with is its mass times the acceleration that is given to the integrator. -/
theorem C113_body (b : ℕ) (hb : b < G.nb) (hk : G.bkind b = .FREE) (hF : ((evaluate G.code m).body b).F ≠ none)
    (hM : IsUnit (bodyGets (evaluate G.code m) b).2.2.det) :
    (bodyGets (evaluate G.code m) b).2.2 *ᵥ Sum.elim ((rates G.code m (evaluate G.code m)).2.2.2 b).2.1 ((rates G.code m (evaluate G.code m)).2.2.2 b).2.2 =
      Sum.elim (bodyGets (evaluate G.code m) b).1 (bodyGets (evaluate G.code m) b).2.1 := by
  obtain ⟨x, hx⟩ := Option.ne_none_iff_exists'.1 hF
  have e : bodyGets (evaluate G.code m) b = x := by
    unfold bodyGets
    rw [hx]
    rfl
  have er : ((rates G.code m (evaluate G.code m)).2.2.2 b).2 = Gear.solve x := by
    show (if b < G.nb then (match G.bkind b with
      | .FREE => _
      | .CPLDPIN => _
      | _ => 0) else (0 : (V × Quat ℝ) × V × V)).2 = _
    rw [if_pos hb, hk]
    show (((evaluate G.code m).body b).F.map Gear.solve).getD 0 = _
    rw [hx]
    rfl
  rw [er, e]
  rw [e] at hM
  exact solve_eq x hM

/-- C113: and the same of a free rod which is not of zero length, about its end A. -/
theorem C113_rod (h : G.Fitted) (hs : G.Sane m) (i : ℕ) (hi : i < G.nr) (hk : G.rkind i = .FREE) (hN : 0 < (G.rod i).N)
    (hM : IsUnit (rodGets (evaluate G.code m) i).2.2.det) :
    (rodGets (evaluate G.code m) i).2.2 *ᵥ Sum.elim ((rates G.code m (evaluate G.code m)).2.2.1 i).2.1 ((rates G.code m (evaluate G.code m)).2.2.1 i).2.2 =
      Sum.elim (rodGets (evaluate G.code m) i).1 (rodGets (evaluate G.code m) i).2.1 := by
  have hT := C111_forces h.held m
  have hC : RodCounts G.code i := .inl ⟨hi, by rw [show G.code.rkind i = _ from hk]; simp⟩
  obtain ⟨M6, e1⟩ := rodNow_about h hs hT i hi ((m.rod i).r 0) 0
  generalize hx : (_, _, M6) = x at e1
  have eF := (hT.rod i hC).1
  have e : rodGets (evaluate G.code m) i = x := by
    unfold rodGets
    rw [eF, (rodNow_eq h hs hT i).1, e1]
    rfl
  have er : ((rates G.code m (evaluate G.code m)).2.2.1 i).2 = Gear.solve x := by
    show (if i < G.nr then (match G.rkind i with
      | .FREE => _
      | .PINNED | .CPLDPIN => _
      | _ => 0) else (0 : (V × Quat ℝ) × V × V)).2 = _
    rw [if_pos hi, hk]
    show Gear.rodA ((evaluate G.code m).rod i).F = _
    unfold Gear.rodA
    rw [eF, (rodNow_eq h hs hT i).1, e1, Option.map_some, Option.getD_some, if_neg]
    show ¬ (G.rod i).N = 0
    omega
  rw [er, e]
  rw [e] at hM
  exact solve_eq x hM

/-- C113: and of a free point. -/
theorem C113_point (h : G.Fitted) (hs : G.Sane m) (i : ℕ) (hi : i < G.np) (hk : G.pkind i = .FREE) (hM : IsUnit (G.pointMass m i).det) :
    G.pointMass m i *ᵥ ((rates G.code m (evaluate G.code m)).2.1 i).2 = G.pointGets (evaluate G.code m) i := by
  have hT := C111_forces h.held m
  have hC : PointCounts G.code i := .inl ⟨hi, by rw [show G.code.pkind i = _ from hk]; simp⟩
  have er : ((rates G.code m (evaluate G.code m)).2.1 i).2 =
      (G.pointMass m i)⁻¹ *ᵥ ((G.pointWith m (evaluate G.code m) i).doRHS G.env.rho_w G.env.g).1 := by
    show (if i < G.np ∧ G.pkind i = .FREE then _ else (0 : V × V)).2 = _
    rw [if_pos ⟨hi, hk⟩]
    show G.pointA ((evaluate G.code m).point i).F = _
    unfold Gear.pointA
    rw [hT.point i hC, pointNow_eq h hs hT, Option.map_some, Option.getD_some, pointWith_mass]
  rw [er, Balance.solve hM, pointGets_eq h hs hT i hC, pointWith_force]

/-- C113: with constant damping and masses, and rods with an axis and fewer than 2 ^ 14 segments, all forces are numbers. -/
theorem C113_defined (hr : 0 ≤ G.env.rho_w) (hN : ∀ k < G.nl, 1 ≤ (G.line k).N) (hl : ∀ k < G.nl, Balance.Massive (G.lineAt m k))
    (hR : ∀ i < G.nr, 0 < (G.rod i).N → (G.rod i).N < 2 ^ 14 ∧ 1 / 10 ^ 12 ≤ (m.rod i).q ⬝ᵥ (m.rod i).q) : G.Sane m := by
  refine ⟨hN, ?_, ?_, ?_⟩
  · intro k hk j _
    have ht : ∀ j, ∃ t, Td (G.lineAt m k) j = some t := fun j => ⟨_, by unfold Td getNonlinearC; rw [(hl k hk).damp]; rfl⟩
    have ha : ∃ a, axial (G.lineAt m k) j = some a := by
      unfold axial
      obtain ⟨t, ht1⟩ := ht j
      obtain ⟨t', ht2⟩ := ht (j - 1)
      rw [ht1, ht2]
      split
      · exact ⟨_, rfl⟩
      · split <;> exact ⟨_, rfl⟩
    obtain ⟨a, ha⟩ := ha
    unfold Fnet
    rw [ha]
    simp
  · intro k hk j _ _
    exact Balance.unit_of_pos fun x hx => Balance.M_pos (hl k hk) (e := G.lineSea m k) hr j x hx
  · intro i hi
    unfold Rods.angles Rods.inertiaCorrection Rods.orientationAngles
    rw [show (G.rodAt m i).N = (G.rod i).N from rfl]
    by_cases h0 : (G.rod i).N = 0
    · simp [h0]
    obtain ⟨h1, h2⟩ := hR i hi (Nat.pos_of_ne_zero h0)
    rw [if_neg h0, if_neg h0, if_neg, if_neg]
    · exact ⟨by simp, by simp⟩
    · unfold Rods.sixNN
      have hb : 6 * (G.rod i).N * (G.rod i).N < 2 ^ 32 := by
        have : (G.rod i).N * (G.rod i).N ≤ (2 ^ 14 - 1) * (2 ^ 14 - 1) := Nat.mul_le_mul (by omega) (by omega)
        nlinarith
      rw [Nat.mod_eq_of_lt hb]
      have := Nat.pos_of_ne_zero h0
      positivity
    · show ¬ (m.rod i).q ⬝ᵥ (m.rod i).q < _
      exact not_lt.2 h2

/-! ## The hypotheses hold -/

/-- A buoy with a mast, which can turn about its foot: one line goes from the top of the mast to an anchor, another from its foot to a float. -/
noncomputable def buoy : Gear where
  nb := 1
  nr := 1
  np := 2
  nl := 2
  bkind _ := .FREE
  rkind _ := .PINNED
  pkind i := if i = 0 then .FIXED else .FREE
  pts
    | none => [(0, ![90, 0, -50])]
    | some _ => []
  rods
    | some 0 => [(0, 0, ![0, 0, 1])]
    | _ => []
  ends
    | 0 => [(0, .BOTTOM)]
    | 1 => [(1, .BOTTOM)]
    | _ => []
  endsA
    | 0 => [(1, .TOP)]
    | _ => []
  endsB
    | 0 => [(0, .TOP)]
    | _ => []
  q0 _ := ![0, 0, 1]
  line _ := ⟨3, 1 / 10, Real.pi / 400, 5000, 10 ^ 9, 0, 0, 1, 0, 1, 0, none, none, none, false, fun _ => 37, fun _ => 37 * (Real.pi / 400), 0, 0,
    .PINNED, .PINNED, 0, 0, 0, false⟩
  point _ := ⟨10, 1, 0, 1, 1, 0, 0, 0, []⟩
  rod _ := ⟨2, 1 / 2, 5000, 1, 0, 1, 1, 1, 4, 0, 0, 0, 0, [], []⟩
  body _ := ⟨10 ^ 6, 1000, ![0, 0, -1], ![10 ^ 7, 10 ^ 7, 10 ^ 7], 0, 0, 0, 0, 0, 1, 0, 0, 0⟩
  env := ⟨1025, 98 / 10, 10 ^ 5, 10 ^ 4, 0, 0, 0, fun x _ => -50 - x / 100, fun _ => 0, fun _ => 0, fun _ => 0, fun _ => 0⟩
  kin _ x := (0, ![1 + x 2 / 100, 1 / 2, 0], 0, 0)
  half _ _ := ⟨0, 1, 0, 0⟩

/-- Where all is, while the buoy turns. -/
noncomputable def afloat : Objects where
  t := 0
  line k := if k = 0 then ⟨⟨fun j => ![90 - 30 * j, 0, 18 * j - 50], 0, .PINNED, .CANTILEVERED, 0, ![0, 0, -1]⟩, ⟨fun _ => none, 0⟩⟩
    else ⟨⟨fun j => ![-60 + 20 * j, 0, 5 * j - 15], 0, .PINNED, .CANTILEVERED, 0, ![0, 0, 1]⟩, ⟨fun _ => none, 0⟩⟩
  point i := if i = 0 then ⟨![90, 0, -50], 0, 0, none⟩ else ⟨![-60, 0, -15], 0, 0, none⟩
  rod _ := ⟨0, Quat.one, 0, 0, ![0, 0, 1], fun j => ![0, 0, 2 * j], 0, 0, 0, ⟨2, 0, fun _ _ => none⟩⟩
  body _ := ⟨0, Quat.one, 0, ![0, 0, 1 / 10], 1, 0, 0, none⟩
  ground := ⟨0, Quat.one, 0, 0, 1, 0, 0, none⟩

theorem buoy_fitted : buoy.Fitted := by
  refine ⟨?_, ?_, ?_, ?_, ?_, ?_, ?_, ?_, ?_⟩
  · show List.Perm [(0, EndPt.BOTTOM), (1, .BOTTOM), (1, .TOP), (0, .TOP)] [(0, .BOTTOM), (0, .TOP), (1, .BOTTOM), (1, .TOP)]
    decide
  · intro b
    rcases b with _ | b <;> simp [buoy]
  · intro b
    rcases b with _ | _ | b <;> simp [buoy]
  · intro b b' a ha a' ha' _
    rcases b with _ | b <;> rcases b' with _ | b' <;> simp [buoy] at ha ha' ⊢
  · intro b b' a ha a' ha' _
    rcases b with _ | _ | b <;> rcases b' with _ | _ | b' <;> simp [buoy] at ha ha' ⊢
  · intro b a ha
    rcases b with _ | b <;> simp [buoy] at ha ⊢
    simp [ha]
  · intro b a ha
    rcases b with _ | _ | b <;> simp [buoy] at ha ⊢
    simp [ha]
  · intro i hi
    match i, hi with
    | i + 2, _ => rfl
  · intro i hi
    match i, hi with
    | i + 1, _ => exact ⟨rfl, rfl⟩

example : buoy.Fitted ∧ buoy.Sane afloat ∧ Connected buoy.code afloat ∧
    (∀ i < buoy.nr, 0 < (buoy.rod i).N → (afloat.rod i).q = orMat (afloat.rod i).quat *ᵥ buoy.q0 i) ∧
    (∀ k < buoy.nl, isEI (buoy.lineAt afloat k) → ∀ j < (buoy.line k).N, 100 * eps / 2 < lstr (buoy.lineAt afloat k) j) := by
  have hq : ∀ i, (afloat.rod i).q = orMat (afloat.rod i).quat *ᵥ buoy.q0 i := by
    intro i
    show _ = orMat Quat.one *ᵥ _
    rw [Rods.orMat_one, Matrix.one_mulVec]
    rfl
  refine ⟨buoy_fitted, C113_defined (by norm_num [buoy]) (fun k _ => by simp [buoy]) ?_ ?_, ⟨?_, ?_, ?_, ?_⟩, fun i _ _ => hq i, ?_⟩
  · intro k hk
    have hk' : k = 0 ∨ k = 1 := by
      have : k < 2 := hk
      omega
    rcases hk' with rfl | rfl <;> refine ⟨?_, ?_, ?_, ?_, ?_, ?_, ?_, ?_, rfl⟩ <;> (try intro j) <;>
      simp [Gear.lineAt, Gear.lineNow, buoy, afloat, dotProduct, Fin.sum_univ_three] <;> positivity
  · intro i _ _
    refine ⟨by simp [buoy], ?_⟩
    simp [afloat, dotProduct, Fin.sum_univ_three]
    norm_num
  · intro b a ha
    rcases b with _ | b
    · obtain rfl : a = (0, ![90, 0, -50]) := List.mem_singleton.1 ha
      simp [PointOn, Mem.bodyOf, afloat]
    · cases ha
  · intro b a ha
    rcases b with _ | _ | b
    · cases ha
    · obtain rfl : a = (0, 0, ![0, 0, 1]) := List.mem_singleton.1 ha
      refine ⟨by simp [RodOn, Mem.bodyOf, afloat], fun h => ?_⟩
      cases h
    · cases ha
  · intro i hi a ha
    have hi' : i = 0 ∨ i = 1 := by
      have : i < 2 := hi
      omega
    rcases hi' with rfl | rfl
    · obtain rfl : a = (0, .BOTTOM) := List.mem_singleton.1 ha
      exact ⟨0, by simp [tip, afloat]⟩
    · obtain rfl : a = (1, .BOTTOM) := List.mem_singleton.1 ha
      exact ⟨0, by simp [tip, afloat]⟩
  · intro i hi
    obtain rfl : i = 0 := by
      have : i < 1 := hi
      omega
    have e0 : buoy.code.mat (afloat.rod 0).quat *ᵥ buoy.code.q0 0 = ![0, 0, 1] := (hq 0).symm
    refine ⟨by ext k; fin_cases k <;> simp [afloat], rfl, fun _ => ?_, ?_, ?_⟩
    · rw [e0]
      constructor
      · ext k
        fin_cases k <;> simp [afloat, buoy, Gear.code]
        norm_num
      · simp [afloat]
    · intro a ha
      obtain rfl : a = (1, .TOP) := List.mem_singleton.1 ha
      refine ⟨![0, 0, 1], ?_, fun _ => ?_⟩
      · simp [tip, afloat, buoy, Gear.code]
        norm_num
      · rw [e0]
        rfl
    · intro a ha
      obtain rfl : a = (0, .TOP) := List.mem_singleton.1 ha
      refine ⟨![0, 0, -1], ?_, fun _ => ?_⟩
      · simp [tip, afloat, buoy, Gear.code]
        norm_num
      · rw [e0]
        simp
  · intro k _ h
    simp [isEI, Gear.lineAt, Gear.lineNow, buoy] at h

end MD.Whole
