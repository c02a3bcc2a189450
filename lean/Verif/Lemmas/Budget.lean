import Verif.Spec.Budget
import Verif.Props.WholeForces

/-!
# Lemmas for the budget of forces
-/

set_option linter.unusedSimpArgs false
set_option linter.unusedVariables false
set_option linter.unusedSectionVars false

namespace MD.Whole

open MD.Mooring Matrix MD.Mat MD.Rot Finset
open MD.Moored (Kind)

/-! ## Sums over what is attached -/

section
variable {A : Type} [AddCommGroup A]

theorem sum_flat {α : Type} (n : ℕ) (f : ℕ → List α) (g : α → A) :
    (((List.range n).flatMap f).map g).sum = ∑ p ∈ range n, ((f p).map g).sum := by
  induction n with
  | zero => simp
  | succ n ih =>
    rw [List.range_succ, List.flatMap_append, List.map_append, List.sum_append, ih, sum_range_succ]
    simp

/-- The sum over the ends of lines is that over what holds them. -/
theorem Gear.Fitted.sum_ends {G : Gear} (h : G.Fitted) (g : ℕ × EndPt → A) :
    ∑ i ∈ range G.np, ((G.ends i).map g).sum + ∑ i ∈ range G.nr, (((G.endsA i).map g).sum + ((G.endsB i).map g).sum) =
      ∑ k ∈ range G.nl, (g (k, .BOTTOM) + g (k, .TOP)) := by
  have e := (h.ends.map g).sum_eq
  rw [List.map_append, List.sum_append, sum_flat, sum_flat, sum_flat] at e
  simpa using e

open Classical in
/-- What is on the bodies that count, body by body. -/
theorem sum_carried {β : Type} (nb n : ℕ) (C : ℕ → Prop) (hC : ∀ b, C b → b < nb) (l : ℕ → List (ℕ × β)) (hn : ∀ b, ((l b).map Prod.fst).Nodup)
    (h1 : ∀ b b', ∀ a ∈ l b, ∀ a' ∈ l b', a.1 = a'.1 → b = b') (hN : ∀ b, ∀ a ∈ l b, a.1 < n) (X : ℕ → A) :
    ∑ b ∈ range nb with C b, ((l b).map fun a => X a.1).sum = ∑ i ∈ range n with (∃ b, C b ∧ ∃ rel, (i, rel) ∈ l b), X i := by
  have e1 : ∀ b, ((l b).map fun a => X a.1).sum = ∑ i ∈ ((l b).map Prod.fst).toFinset, X i := by
    intro b
    rw [List.sum_toFinset _ (hn b), List.map_map]
    rfl
  rw [sum_congr rfl fun b _ => e1 b, ← sum_biUnion]
  · apply sum_congr _ fun _ _ => rfl
    ext i
    simp only [mem_biUnion, mem_filter, mem_range, List.mem_toFinset, List.mem_map, Prod.exists, exists_and_right, exists_eq_right]
    constructor
    · rintro ⟨b, ⟨hb, hc⟩, rel, hr⟩
      exact ⟨hN b _ hr, b, hc, rel, hr⟩
    · rintro ⟨-, b, hc, rel, hr⟩
      exact ⟨b, ⟨hC b hc, hc⟩, rel, hr⟩
  · intro b _ b' _ hbb
    rw [Function.onFun, Finset.disjoint_left]
    intro i hi hi'
    simp only [List.mem_toFinset, List.mem_map] at hi hi'
    obtain ⟨a, ha, rfl⟩ := hi
    obtain ⟨a', ha', he⟩ := hi'
    exact hbb (h1 b b' a ha a' ha' he.symm)

open Classical in
/-- The budget: all that is on bodies, on rods and points which are on none, and at what holds lines and whose forces are not computed, is what
comes from the lines and what is added. -/
theorem Gear.Fitted.budget {G : Gear} (h : G.Fitted) (g : ℕ × EndPt → A) (P R B oP oR oB : ℕ → A)
    (hP : ∀ i < G.np, PointCounts G.code i → P i = ((G.ends i).map g).sum + oP i)
    (hR : ∀ i < G.nr, RodCounts G.code i → R i = ((G.endsA i).map g).sum + ((G.endsB i).map g).sum + oR i)
    (hB : ∀ b, BodyCounts G.code b → B b = ((G.pts (some b)).map fun a => P a.1).sum + ((G.rods (some b)).map fun a => R a.1).sum + oB b) :
    ∑ b ∈ range G.nb with BodyCounts G.code b, B b +
      ∑ i ∈ range G.nr with RodCounts G.code i ∧ ¬ G.RodOnBody i, R i +
      ∑ i ∈ range G.np with PointCounts G.code i ∧ ¬ G.PointOnBody i, P i +
      ∑ i ∈ range G.nr with ¬ RodCounts G.code i, (((G.endsA i).map g).sum + ((G.endsB i).map g).sum) +
      ∑ i ∈ range G.np with ¬ PointCounts G.code i, ((G.ends i).map g).sum =
    ∑ k ∈ range G.nl, (g (k, .BOTTOM) + g (k, .TOP)) + ∑ b ∈ range G.nb with BodyCounts G.code b, oB b +
      ∑ i ∈ range G.nr with RodCounts G.code i, oR i + ∑ i ∈ range G.np with PointCounts G.code i, oP i := by
  have eB : ∑ b ∈ range G.nb with BodyCounts G.code b, B b =
      ∑ i ∈ range G.np with G.PointOnBody i, P i + ∑ i ∈ range G.nr with G.RodOnBody i, R i +
        ∑ b ∈ range G.nb with BodyCounts G.code b, oB b := by
    rw [sum_congr rfl fun b hb => hB b (mem_filter.1 hb).2, sum_add_distrib, sum_add_distrib,
      sum_carried G.nb G.np (BodyCounts G.code) (fun b hb => hb.1) (fun b => G.pts (some b)) (fun b => h.pts _)
        (fun b b' a ha a' ha' he => Option.some.inj (h.ptOne _ _ a ha a' ha' he)) (fun b => h.ptNum _),
      sum_carried G.nb G.nr (BodyCounts G.code) (fun b hb => hb.1) (fun b => G.rods (some b)) (fun b => h.rods _)
        (fun b b' a ha a' ha' he => Option.some.inj (h.rodOne _ _ a ha a' ha' he)) (fun b => h.rodNum _)]
    rfl
  have split : ∀ (n : ℕ) (C O : ℕ → Prop) (hO : ∀ i, O i → C i) (X : ℕ → A),
      ∑ i ∈ range n with O i, X i + ∑ i ∈ range n with C i ∧ ¬ O i, X i = ∑ i ∈ range n with C i, X i := by
    intro n C O hO X
    rw [← sum_filter_add_sum_filter_not ((range n).filter C) O, filter_filter, filter_filter]
    congr 1
    apply sum_congr _ fun _ _ => rfl
    ext i
    simp only [mem_filter]
    exact ⟨fun ⟨a, b⟩ => ⟨a, hO i b, b⟩, fun ⟨a, _, b⟩ => ⟨a, b⟩⟩
  have eP := split G.np (PointCounts G.code) G.PointOnBody (fun i hi => .inr hi) P
  have eR := split G.nr (RodCounts G.code) G.RodOnBody (fun i hi => .inr hi) R
  have fP : ∑ i ∈ range G.np with PointCounts G.code i, P i = ∑ i ∈ range G.np with PointCounts G.code i, ((G.ends i).map g).sum +
      ∑ i ∈ range G.np with PointCounts G.code i, oP i := by
    rw [← sum_add_distrib]
    exact sum_congr rfl fun i hi => hP i (mem_range.1 (mem_filter.1 hi).1) (mem_filter.1 hi).2
  have fR : ∑ i ∈ range G.nr with RodCounts G.code i, R i =
      ∑ i ∈ range G.nr with RodCounts G.code i, (((G.endsA i).map g).sum + ((G.endsB i).map g).sum) +
      ∑ i ∈ range G.nr with RodCounts G.code i, oR i := by
    rw [← sum_add_distrib]
    exact sum_congr rfl fun i hi => hR i (mem_range.1 (mem_filter.1 hi).1) (mem_filter.1 hi).2
  have sP := sum_filter_add_sum_filter_not (range G.np) (PointCounts G.code) fun i => ((G.ends i).map g).sum
  have sR := sum_filter_add_sum_filter_not (range G.nr) (RodCounts G.code) fun i => ((G.endsA i).map g).sum + ((G.endsB i).map g).sum
  rw [← h.sum_ends g, ← sP, ← sR, eB]
  rw [fP] at eP
  rw [fR] at eR
  generalize ∑ i ∈ range G.np with G.PointOnBody i, P i = a1 at *
  generalize ∑ i ∈ range G.nr with G.RodOnBody i, R i = a2 at *
  have e3 : ∑ i ∈ range G.np with PointCounts G.code i ∧ ¬ G.PointOnBody i, P i = _ := eq_sub_of_add_eq' eP
  have e4 : ∑ i ∈ range G.nr with RodCounts G.code i ∧ ¬ G.RodOnBody i, R i = _ := eq_sub_of_add_eq' eR
  rw [e3, e4]
  abel

end

/-! ## Lines -/

section
variable {G : Gear} {m : Objects}

theorem Gear.Fitted.held (h : G.Fitted) : ∀ o : Holder, ∀ a ∈ o.list G.code, a.1 < G.code.nl := by
  have hm : ∀ a ∈ (List.range G.np).flatMap G.ends ++ (List.range G.nr).flatMap (fun i => G.endsA i ++ G.endsB i), a.1 < G.nl := by
    intro a ha
    rw [h.ends.mem_iff, List.mem_flatMap] at ha
    obtain ⟨k, hk, ha⟩ := ha
    rw [List.mem_range] at hk
    simp only [List.mem_cons, List.not_mem_nil, or_false] at ha
    rcases ha with rfl | rfl <;> exact hk
  rintro (i | i | i) a ha
  · apply hm
    by_cases hi : i < G.np
    · exact List.mem_append_left _ (List.mem_flatMap.2 ⟨i, List.mem_range.2 hi, ha⟩)
    · rw [show Holder.list G.code (.point i) = [] from h.spare i (not_lt.1 hi)] at ha
      cases ha
  · apply hm
    by_cases hi : i < G.nr
    · exact List.mem_append_right _ (List.mem_flatMap.2 ⟨i, List.mem_range.2 hi, List.mem_append_left _ ha⟩)
    · rw [show Holder.list G.code (.rodA i) = [] from (h.spareRod i (not_lt.1 hi)).1] at ha
      cases ha
  · apply hm
    by_cases hi : i < G.nr
    · exact List.mem_append_right _ (List.mem_flatMap.2 ⟨i, List.mem_range.2 hi, List.mem_append_right _ ha⟩)
    · rw [show Holder.list G.code (.rodB i) = [] from (h.spareRod i (not_lt.1 hi)).2] at ha
      cases ha

theorem getEndStuff_eq {L : Mooring.Line} {e : Env} {p : EndPt} {f : V} (hf : Fnet L e (Energy.endNode L p) = some f) :
    getEndStuff L e p = some (f, 0, M L e (Energy.endNode L p)) := by
  cases p
  · change Fnet L e L.N = some f at hf
    show (Fnet L e L.N >>= fun f => pure (f, (0 : V), M L e L.N)) = _
    rw [hf]; rfl
  · change Fnet L e 0 = some f at hf
    show (Fnet L e 0 >>= fun f => pure (f, (0 : V), M L e 0)) = _
    rw [hf]; rfl

theorem endNode_le (L : Mooring.Line) (p : EndPt) : Energy.endNode L p ≤ L.N := by
  cases p <;> simp [Energy.endNode]

/-- What lines give, as it is read afterwards. -/
theorem Gear.Sane.stuff (hs : G.Sane m) {m' : Objects} (hT : Together G.code m m') {a : ℕ × EndPt} (ha : a.1 < G.nl) :
    (Whole.lineNow G.code m a.1).stuff a.2 = some (pull m' a, 0, G.endMass m a) ∧
      Fnet (G.lineAt m a.1) (G.lineSea m a.1) (Energy.endNode (G.lineAt m a.1) a.2) = some (pull m' a) := by
  have h0 := hs.node a.1 ha (Energy.endNode (G.lineAt m a.1) a.2) (endNode_le _ _)
  obtain ⟨f, hf⟩ := Option.ne_none_iff_exists'.1 h0
  have e : (Whole.lineNow G.code m a.1).stuff a.2 = some (f, 0, G.endMass m a) := getEndStuff_eq hf
  have ep : pull m' a = f := by
    unfold pull
    rw [hT.line a.1 ha, e]
    rfl
  rw [ep]
  exact ⟨e, hf⟩

theorem Gear.Sane.stuffs (hs : G.Sane m) {m' : Objects} (hT : Together G.code m m') (l : List (ℕ × EndPt)) (hl : ∀ a ∈ l, a.1 < G.nl) :
    (pullNow G.code m l).mapM (fun a => a.1.stuff a.2) = some (l.map fun a => (pull m' a, 0, G.endMass m a)) := by
  induction l with
  | nil => rfl
  | cons a l ih =>
    show (((Whole.lineNow G.code m a.1, a.2) :: pullNow G.code m l).mapM fun a => a.1.stuff a.2) = _
    rw [List.mapM_cons, ih fun b hb => hl b (List.mem_cons_of_mem _ hb)]
    dsimp only
    rw [(hs.stuff hT (hl a List.mem_cons_self)).1]
    rfl

/-! ## Points -/

/-- A point with its lines. -/
noncomputable def Gear.pointWith (G : Gear) (m m' : Objects) (i : ℕ) : Bodies.Point :=
  { G.pointAt m i with attached := [((G.ends i).map fun a => (pull m' a, 0, G.endMass m a)).sum] }

theorem pointNow_eq (h : G.Fitted) (hs : G.Sane m) {m' : Objects} (hT : Together G.code m m') (i : ℕ) :
    pointNow G.code m i = some (G.pointWith m m' i) := by
  show ((pullNow G.code m (G.ends i)).mapM fun a : LineOut × EndPt => a.1.stuff a.2).map _ = _
  rw [hs.stuffs hT (G.ends i) (h.held (.point i))]
  rfl

theorem fst_list_sum {α β : Type} [AddCommMonoid α] [AddCommMonoid β] (l : List (α × β)) : l.sum.1 = (l.map Prod.fst).sum :=
  map_list_sum (AddMonoidHom.fst α β) l

theorem snd_list_sum {α β : Type} [AddCommMonoid α] [AddCommMonoid β] (l : List (α × β)) : l.sum.2 = (l.map Prod.snd).sum :=
  map_list_sum (AddMonoidHom.snd α β) l

theorem pointWith_force (m' : Objects) (i : ℕ) : ((G.pointWith m m' i).doRHS G.env.rho_w G.env.g).1 =
    ((G.ends i).map (pull m')).sum + G.pointLoad m i := by
  rw [Bodies.C40_net_force]
  unfold Gear.pointWith
  simp only [List.map_cons, List.map_nil, List.sum_singleton, fst_list_sum, List.map_map]
  rfl

theorem pointWith_mass (m' : Objects) (i : ℕ) : ((G.pointWith m m' i).doRHS G.env.rho_w G.env.g).2 = G.pointMass m i := by
  rw [Bodies.C40_mass]
  unfold Gear.pointWith
  simp only [List.map_cons, List.map_nil, List.sum_singleton, snd_list_sum, List.map_map]
  rfl

/-! ## Rods -/

/-- A rod with its lines. -/
noncomputable def Gear.rodWith (G : Gear) (m m' : Objects) (i : ℕ) : Rods.Rod :=
  { G.rodAt m i with
    attachedA := [((G.endsA i).map fun a => (pull m' a, 0, G.endMass m a)).sum]
    attachedB := [((G.endsB i).map fun a => (pull m' a, 0, G.endMass m a)).sum] }

theorem spaced_zero (N : ℕ) (x : ℕ → V) : spaced N x 0 = x 0 := by
  unfold spaced
  split_ifs <;> simp

theorem rodNow_eq (h : G.Fitted) (hs : G.Sane m) {m' : Objects} (hT : Together G.code m m') (i : ℕ) :
    (rodNow G.code m (m.rod i).r i).rA = (m.rod i).r 0 ∧ ∀ x w, (rodNow G.code m (m.rod i).r i).about x w =
      Rods.getNetForceAndMass (G.rodWith m m' i) (G.rodSea m i) x w := by
  refine ⟨spaced_zero _ _, fun x w => ?_⟩
  show ((pullNow G.code m (G.endsA i)).mapM fun a : LineOut × EndPt => a.1.stuff a.2).bind (fun lA =>
    ((pullNow G.code m (G.endsB i)).mapM fun a : LineOut × EndPt => a.1.stuff a.2).bind fun lB => _) = _
  rw [hs.stuffs hT (G.endsA i) (h.held (.rodA i)), hs.stuffs hT (G.endsB i) (h.held (.rodB i)), Option.bind_some, Option.bind_some]
  dsimp only
  rw [spaced_zero, spaced_zero]
  rfl

theorem rodWith_Lsum (m' : Objects) (i : ℕ) : Rods.Lsum (G.rodWith m m' i) = Rods.Lsum (G.rodAt m i) := by
  funext j
  induction j with
  | zero => rfl
  | succ j ih =>
    unfold Rods.Lsum
    rw [ih]
    rfl

theorem rodWith_vof (m' : Objects) (i : ℕ) (e : Env) (phi : ℝ) : Rods.vof (G.rodWith m m' i) e phi = Rods.vof (G.rodAt m i) e phi := by
  funext j
  unfold Rods.vof
  rw [rodWith_Lsum]
  rfl

theorem rodWith_M (m' : Objects) (i j : ℕ) : Rods.M (G.rodWith m m' i) (G.rodSea m i) (G.lean m i).1 j = G.rodMass m i j := by
  have e : Rods.addedM (G.rodWith m m' i) (G.rodSea m i) (G.lean m i).1 j = Rods.addedM (G.rodAt m i) (G.rodSea m i) (G.lean m i).1 j := by
    unfold Rods.addedM
    rw [rodWith_vof]
    rfl
  unfold Rods.M Gear.rodMass
  rw [e]
  congr 1
  unfold Rods.lineM Gear.rodWith
  simp only [List.map_cons, List.map_nil, List.sum_singleton, fst_list_sum, snd_list_sum, List.map_map]
  rfl

theorem rodWith_Fnet (m' : Objects) (i j : ℕ) : Rods.Fnet (G.rodWith m m' i) (G.rodSea m i) (G.lean m i).1 (G.lean m i).2 j =
    G.rodLoad m i j + ((if j = 0 then ((G.endsA i).map (pull m')).sum else 0) + if j = (G.rod i).N then ((G.endsB i).map (pull m')).sum else 0) := by
  have e : Rods.lineF (G.rodWith m m' i) j =
      (if j = 0 then ((G.endsA i).map (pull m')).sum else 0) + if j = (G.rod i).N then ((G.endsB i).map (pull m')).sum else 0 := by
    unfold Rods.lineF Gear.rodWith
    simp only [List.map_cons, List.map_nil, List.sum_singleton, fst_list_sum, snd_list_sum, List.map_map]
    rfl
  rw [← e]
  have e1 : ∀ phi beta, Rods.Bo (G.rodWith m m' i) (G.rodSea m i) phi beta j = Rods.Bo (G.rodAt m i) (G.rodSea m i) phi beta j := by
    intro phi beta
    unfold Rods.Bo Rods.BoSide Rods.BoA Rods.BoB
    rw [rodWith_vof]
    rfl
  have e2 : ∀ phi, Rods.Dp (G.rodWith m m' i) (G.rodSea m i) phi j = Rods.Dp (G.rodAt m i) (G.rodSea m i) phi j := by
    intro phi
    unfold Rods.Dp
    rw [rodWith_vof]
    rfl
  have e3 : ∀ phi, Rods.Dq (G.rodWith m m' i) (G.rodSea m i) phi j = Rods.Dq (G.rodAt m i) (G.rodSea m i) phi j := by
    intro phi
    unfold Rods.Dq
    rw [rodWith_vof]
    rfl
  have e4 : ∀ phi, Rods.Ap (G.rodWith m m' i) (G.rodSea m i) phi j = Rods.Ap (G.rodAt m i) (G.rodSea m i) phi j := by
    intro phi
    unfold Rods.Ap
    rw [rodWith_vof]
    rfl
  have e5 : ∀ phi, Rods.Aq (G.rodWith m m' i) (G.rodSea m i) phi j = Rods.Aq (G.rodAt m i) (G.rodSea m i) phi j := by
    intro phi
    unfold Rods.Aq
    rw [rodWith_vof]
    rfl
  have e6 : ∀ phi, Rods.Pd (G.rodWith m m' i) (G.rodSea m i) phi j = Rods.Pd (G.rodAt m i) (G.rodSea m i) phi j := by
    intro phi
    unfold Rods.Pd
    rw [rodWith_vof]
    rfl
  unfold Rods.Fnet Gear.rodLoad
  rw [e1, e2, e3, e4, e5, e6]
  rfl

/-- The force on a rod. -/
noncomputable def Gear.rodForce (G : Gear) (m m' : Objects) (i : ℕ) : V :=
  ((G.endsA i).map (pull m')).sum + ((G.endsB i).map (pull m')).sum + ∑ j ∈ range ((G.rod i).N + 1), G.rodLoad m i j

/-- The moment on a rod about its end A. -/
noncomputable def Gear.rodMoment (G : Gear) (m m' : Objects) (i : ℕ) : V :=
  (Rods.r (G.rodAt m i) (G.rod i).N - (m.rod i).r 0) ⨯₃ ((G.endsB i).map (pull m')).sum +
    ∑ j ∈ range ((G.rod i).N + 1), (Rods.r (G.rodAt m i) j - (m.rod i).r 0) ⨯₃ G.rodLoad m i j + G.rodTorque m i

theorem rodWith_F6net (m' : Objects) (i : ℕ) : Rods.F6net (G.rodWith m m' i) (G.rodSea m i) (G.lean m i).1 (G.lean m i).2 =
    (G.rodForce m m' i, G.rodMoment m m' i) := by
  have e0 : Rods.r (G.rodWith m m' i) = Rods.r (G.rodAt m i) := rfl
  have e1 : Rods.r (G.rodAt m i) 0 = (m.rod i).r 0 := by
    unfold Rods.r
    simp [Gear.rodAt]
  have eM : Rods.MextLine (G.rodWith m m' i) = 0 := by
    unfold Rods.MextLine Gear.rodWith
    simp [List.map_cons, List.map_nil, List.sum_singleton, fst_list_sum, snd_list_sum, List.map_map, Function.comp_def]
  unfold Rods.F6net Rods.Mext
  rw [eM, show (G.rodWith m m' i).N = (G.rod i).N from rfl]
  refine Prod.ext ?_ ?_
  · show ∑ j ∈ range ((G.rod i).N + 1), _ = _
    rw [sum_congr rfl fun j _ => rodWith_Fnet m' i j, sum_add_distrib, sum_add_distrib, sum_ite_eq', sum_ite_eq', if_pos (by simp),
      if_pos (by simp), add_comm]
    rfl
  · show ∑ j ∈ range ((G.rod i).N + 1), _ + _ = _
    rw [e0, e1, sum_congr rfl fun j _ => by rw [rodWith_Fnet m' i j, map_add, map_add], sum_add_distrib, sum_add_distrib]
    have f1 : ∑ j ∈ range ((G.rod i).N + 1), (Rods.r (G.rodAt m i) j - (m.rod i).r 0) ⨯₃ (if j = 0 then ((G.endsA i).map (pull m')).sum else 0) = 0 := by
      apply sum_eq_zero
      intro j _
      split_ifs with hj
      · rw [hj, e1, sub_self, map_zero, LinearMap.zero_apply]
      · rw [map_zero]
    have f2 : ∑ j ∈ range ((G.rod i).N + 1), (Rods.r (G.rodAt m i) j - (m.rod i).r 0) ⨯₃
        (if j = (G.rod i).N then ((G.endsB i).map (pull m')).sum else 0) =
        (Rods.r (G.rodAt m i) (G.rod i).N - (m.rod i).r 0) ⨯₃ ((G.endsB i).map (pull m')).sum := by
      rw [sum_eq_single (G.rod i).N]
      · rw [if_pos rfl]
      · intro j _ hj
        rw [if_neg hj, map_zero]
      · intro hj
        simp at hj
    rw [f1, f2]
    have f3 : Rods.MextCap (G.rodWith m m' i) (G.rodSea m i) (G.lean m i).1 (G.lean m i).2 =
        Rods.MextCap (G.rodAt m i) (G.rodSea m i) (G.lean m i).1 (G.lean m i).2 := by
      unfold Rods.MextCap
      rw [rodWith_vof]
      rfl
    rw [f3]
    show _ = _ + _ + (Rods.MextCap _ _ _ _ + Rods.MextWater _ _ _ _)
    rw [zero_add, add_zero, add_comm (∑ j ∈ _, _)]
    rfl

/-- What a rod gives about a place. -/
theorem rodNow_about (h : G.Fitted) (hs : G.Sane m) {m' : Objects} (hT : Together G.code m m') (i : ℕ) (hi : i < G.nr) (x w : V) :
    ∃ M6, (rodNow G.code m (m.rod i).r i).about x w = some (G.rodForce m m' i + Rods.centripetal (G.rodWith m m' i) (G.rodSea m i) (G.lean m i).1 x w,
      G.rodMoment m m' i + ((m.rod i).r 0 - x) ⨯₃ G.rodForce m m' i, M6) := by
  obtain ⟨a, ha⟩ := Option.ne_none_iff_exists'.1 (hs.rod i hi).1
  obtain ⟨c, hc⟩ := Option.ne_none_iff_exists'.1 (hs.rod i hi).2
  have hl : G.lean m i = a := by
    unfold Gear.lean
    rw [ha]
    rfl
  have ha' : Rods.angles (G.rodWith m m' i) = some a := ha
  have hc' : Rods.inertiaCorrection (G.rodWith m m' i) = some c := hc
  have e1 : Rods.r (G.rodWith m m' i) 0 = (m.rod i).r 0 := by
    unfold Rods.r
    simp [Gear.rodAt, Gear.rodWith]
  rw [(rodNow_eq h hs hT i).2]
  unfold Rods.getNetForceAndMass Rods.M6net
  rw [ha', hc', Option.bind_some, Option.map_some, Option.map_some]
  dsimp only
  rw [e1, ← hl, rodWith_F6net]
  exact ⟨_, rfl⟩

theorem centripetal_still (R : Rods.Rod) (e : Env) (phi : ℝ) (x : V) : Rods.centripetal R e phi x 0 = 0 := by
  unfold Rods.centripetal
  simp

theorem rodGets_eq (h : G.Fitted) (hs : G.Sane m) {m' : Objects} (hT : Together G.code m m') (i : ℕ) (hi : i < G.nr) (hc : RodCounts G.code i) :
    (rodGets m' i).1 = G.rodForce m m' i ∧ (rodGets m' i).2.1 = G.rodMoment m m' i := by
  unfold rodGets
  rw [(hT.rod i hc).1, (rodNow_eq h hs hT i).1]
  obtain ⟨M6, e⟩ := rodNow_about h hs hT i hi ((m.rod i).r 0) 0
  rw [e, centripetal_still, sub_self, map_zero, LinearMap.zero_apply, add_zero, add_zero]
  exact ⟨rfl, rfl⟩

theorem pointGets_eq (h : G.Fitted) (hs : G.Sane m) {m' : Objects} (hT : Together G.code m m') (i : ℕ) (hc : PointCounts G.code i) :
    G.pointGets m' i = ((G.ends i).map (pull m')).sum + G.pointLoad m i := by
  unfold Gear.pointGets
  rw [hT.point i hc, pointNow_eq h hs hT, Option.map_some, pointWith_force]
  rfl

/-! ## Bodies -/

theorem mapM_all {α β : Type} (f : α → Option β) (g : α → β) (l : List α) (h : ∀ a ∈ l, f a = some (g a)) : l.mapM f = some (l.map g) :=
  Balance.mapM_map f g l h

/-- A force on a body. -/
theorem bodyGets_eq (h : G.Fitted) (hs : G.Sane m) {m' : Objects} (hT : Together G.code m m') (b : ℕ) (hc : BodyCounts G.code b) :
    (bodyGets m' b).1 = ((G.pts (some b)).map fun a => G.pointGets m' a.1).sum + ((G.rods (some b)).map fun a => (rodGets m' a.1).1).sum +
      (G.bodyLoad m b - G.turning m b) ∧
    (bodyGets m' b).2.1 = ((G.pts (some b)).map fun a => ((m.point a.1).r - (m.body b).pos) ⨯₃ G.pointGets m' a.1).sum +
      ((G.rods (some b)).map fun a => (rodGets m' a.1).2.1 + ((m.rod a.1).r 0 - (m.body b).pos) ⨯₃ (rodGets m' a.1).1).sum +
      ((G.bodyAt m b).rCG ⨯₃ (G.bodyAt m b).Fgrav G.env.rho_w G.env.g + (G.bodyAt m b).dragMoment G.env.rho_w) := by
  let B := m.body b
  have hP : ∀ a ∈ G.pts (some b), (pointNow G.code m a.1).map (fun p => { p with r := (m.point a.1).r }.getNetForceAndMass G.env.rho_w G.env.g B.pos B.w) =
      some (G.pointGets m' a.1 + -(G.pointMass m a.1 *ᵥ (B.w ⨯₃ (B.w ⨯₃ ((m.point a.1).r - B.pos)))),
        ((m.point a.1).r - B.pos) ⨯₃ G.pointGets m' a.1, translateMass ((m.point a.1).r - B.pos) (G.pointMass m a.1)) := by
    intro a ha
    rw [pointNow_eq h hs hT, Option.map_some, pointGets_eq h hs hT a.1 (.inr ⟨b, hc, a.2, ha⟩), ← pointWith_force, ← pointWith_mass m']
    rfl
  have hR : ∀ a : ℕ × V × V, ∃ M6, a ∈ G.rods (some b) → (rodNow G.code m (m.rod a.1).r a.1).about B.pos B.w =
      some ((rodGets m' a.1).1 + Rods.centripetal (G.rodWith m m' a.1) (G.rodSea m a.1) (G.lean m a.1).1 B.pos B.w,
      (rodGets m' a.1).2.1 + ((m.rod a.1).r 0 - B.pos) ⨯₃ (rodGets m' a.1).1, M6) := by
    intro a
    by_cases ha : a ∈ G.rods (some b)
    · obtain ⟨M6, e⟩ := rodNow_about h hs hT a.1 (h.rodNum _ a ha) B.pos B.w
      obtain ⟨e1, e2⟩ := rodGets_eq h hs hT a.1 (h.rodNum _ a ha) (.inr ⟨b, hc, a.2, ha⟩)
      rw [← e1, ← e2] at e
      exact ⟨M6, fun _ => e⟩
    · exact ⟨0, fun hh => absurd hh ha⟩
  choose M6 hR using hR
  have eF : bodyNow G.code m (fun i => (m.rod i).r) b = some (Bodies.addAll ((G.rods (some b)).map fun a =>
        ((rodGets m' a.1).1 + Rods.centripetal (G.rodWith m m' a.1) (G.rodSea m a.1) (G.lean m a.1).1 B.pos B.w,
        (rodGets m' a.1).2.1 + ((m.rod a.1).r 0 - B.pos) ⨯₃ (rodGets m' a.1).1, M6 a))
      (Bodies.addAll ((G.pts (some b)).map fun a => (G.pointGets m' a.1 + -(G.pointMass m a.1 *ᵥ (B.w ⨯₃ (B.w ⨯₃ ((m.point a.1).r - B.pos)))),
        ((m.point a.1).r - B.pos) ⨯₃ G.pointGets m' a.1, translateMass ((m.point a.1).r - B.pos) (G.pointMass m a.1)))
      (((G.bodyAt m b).ownF G.env.rho_w G.env.g).1, ((G.bodyAt m b).ownF G.env.rho_w G.env.g).2, (G.bodyAt m b).ownM G.env.rho_w))) := by
    show (((G.pts (some b)).map fun a => ((m.point a.1).r, pointNow G.code m a.1)).mapM
        (fun a : V × Option Bodies.Point => a.2.map fun p => { p with r := a.1 }.getNetForceAndMass G.env.rho_w G.env.g B.pos B.w)).bind (fun lP =>
      (((G.rods (some b)).map fun a => ((m.rod a.1).pos, (m.rod a.1).vel, rodNow G.code m (m.rod a.1).r a.1)).mapM
        (fun a : V × V × RodOut => a.2.2.about B.pos B.w)).bind fun lR => some (Bodies.addAll lR (Bodies.addAll lP _))) = _
    rw [List.mapM_map, List.mapM_map, Function.comp_def, Function.comp_def]
    dsimp only
    rw [mapM_all _ _ _ hP, Option.bind_some, mapM_all _ _ _ hR, Option.bind_some]
    rfl
  unfold bodyGets
  rw [hT.body b hc, eF, Option.getD_some, Bodies.addAll_eq, Bodies.addAll_eq]
  simp only [List.map_map, Function.comp_def]
  have sl : ∀ {α : Type} (l : List α) (f g : α → V), (l.map fun a => f a + g a).sum = (l.map f).sum + (l.map g).sum := by
    intro α l f g
    induction l with
    | nil => simp
    | cons a l ih => simp only [List.map_cons, List.sum_cons, ih]; abel
  have sn : ∀ {α : Type} (l : List α) (f : α → V), (l.map fun a => -f a).sum = -(l.map f).sum := by
    intro α l f
    induction l with
    | nil => simp
    | cons a l ih => simp only [List.map_cons, List.sum_cons, ih]; abel
  constructor
  · rw [sl, sl, sn]
    have ec : ∀ a : ℕ × V × V, Rods.centripetal (G.rodWith m m' a.1) (G.rodSea m a.1) (G.lean m a.1).1 B.pos B.w = -(if (G.rod a.1).N = 0 then 0 else
        ∑ j ∈ range ((G.rod a.1).N + 1), G.rodMass m a.1 j *ᵥ
          (B.w ⨯₃ (B.w ⨯₃ (Rods.r (G.rodAt m a.1) j - B.pos)))) := by
      intro a
      unfold Rods.centripetal
      rw [show (G.rodWith m m' a.1).N = (G.rod a.1).N from rfl]
      split_ifs
      · simp
      · rw [sum_congr rfl fun j _ => by rw [rodWith_M]]
        rfl
    simp only [ec]
    rw [sn]
    unfold Gear.turning Gear.bodyLoad Bodies.Body.ownF
    dsimp only
    rw [add_sub_cancel_left]
    show _ - _ *ᵥ (B.w ⨯₃ (B.w ⨯₃ _)) + _ + _ + _ = _
    abel
  · unfold Bodies.Body.ownF
    dsimp only
    abel

end

end MD.Whole
