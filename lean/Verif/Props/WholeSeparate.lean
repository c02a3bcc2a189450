import Verif.Lemmas.Within

/-!
# C106, C101: with bodies and rods, what is not connected does not influence each other, and the order of the objects does not matter
-/

set_option linter.unusedSimpArgs false
set_option linter.unusedSectionVars false
set_option linter.unusedVariables false
set_option linter.unnecessarySeqFocus false

namespace MD.Whole

open MD.Mooring Matrix
open MD.Moored (Kind)

variable {Q FL FP FR FB Wt : Type} {S S' : System Q FL FP FR FB Wt} {β : Names}

theorem simulation_same [AddCommGroup Q] [Module ℝ Q] (hw : Within β S S') (hS : Sound S) (hS' : Sound S')
    (hN : ∀ i < S.nr, 0 < S.rodN i) (hl : ∀ h : Holder, ∀ a ∈ h.list S, a.1 < S.nl) (hl' : ∀ h : Holder, ∀ a ∈ h.list S', a.1 < S'.nl)
    (E : Each Q) (conv conv' : State Q × State Q → State Q × State Q → Bool) {fr fr' : Fresh} (hf : SameFresh β S' fr fr')
    (sc : Time.Scheme ℝ) (hsc : Relate.NotAnderson sc ∨ Relate.Ends (E.aux conv fr) (E.aux conv' fr') (SameState β S')) (dtM0 : ℝ) (fuel : ℕ)
    (calls calls' : List Asked)
    (hc : List.Forall₂ (SameAsked β S') calls calls') (s s' e : Time.Sim ℝ (State Q) (Mem Q FL FP FR FB))
    (h : SameSim β S' s s') (hm : Connected S s.m)
    (he : calls.foldlM (call S (E.aux conv fr) sc dtM0 fuel) s = some e) :
    ∃ e', calls'.foldlM (call S' (E.aux conv' fr') sc dtM0 fuel) s' = some e' ∧ SameSim β S' e e' := by
  have hm' := connected_part hw hS' hl' h.m hm
  have hN' : ∀ i < S'.nr, 0 < S'.rodN i := fun i hi => by rw [hw.rodN i hi]; exact hN _ (hw.nr i hi)
  have hM := machine_same hw hS hS' hN hN' hl hl'
  have hA : Relate.AuxAlike (1 : ℝ) (E.aux conv fr) (E.aux conv' fr') (SameState β S') (SameState β S') := aux_same E conv conv' hf
  induction hc generalizing s s' with
  | nil =>
    cases he
    exact ⟨s', rfl, h⟩
  | @cons x x' l l' hx _ ih =>
    rw [List.foldlM_cons] at he
    cases h1 : call S (E.aux conv fr) sc dtM0 fuel s x with
    | none => rw [h1] at he; cases he
    | some e1 =>
      rw [h1] at he
      have key : ∃ e1', call S' (E.aux conv' fr') sc dtM0 fuel s' x' = some e1' ∧ SameSim β S' e1 e1' ∧ Connected S e1.m ∧ Connected S' e1'.m := by
        unfold call at h1 ⊢
        rw [hx.dt]
        split_ifs at h1 ⊢ with h0
        · cases h1
          exact ⟨s', rfl, h, hm, hm'⟩
        · split at h1
          · rename_i e1' hs hr
            cases h1
            have hb := initiate_same hw hS hS' hN hN' hx ⟨h.m, hm, hm'⟩
            obtain ⟨-, e2, h2, h3⟩ := Relate.same_call one_pos hM hA sc hsc (one_mul dtM0).symm fuel (one_mul x.dt).symm
              (s := { s with m := initiate S x s.m }) (s' := { s' with m := initiate S' x' s'.m })
              ⟨by rw [one_mul]; exact h.t, by rw [one_mul]; exact h.tl, h.n, fun k hk => hk ▸ h.r, h.rd, hb⟩ _ _ hr trivial
            rw [h2]
            refine ⟨e2, rfl, ⟨?_, ?_, h3.n, h3.r 0 rfl, h3.rd, h3.m.1⟩, h3.m.2⟩
            · rw [h3.t, one_mul]
            · rw [h3.tl, one_mul]
          · cases h1
      obtain ⟨e1', h2, h3, h4, h5⟩ := key
      obtain ⟨e', h6, h7⟩ := ih e1 e1' h3 h4 he h5
      refine ⟨e', ?_, h7⟩
      rw [List.foldlM_cons, h2]
      exact h6

/-! ## Parts -/

/-- C106: a part of a system of bodies, rods, points and lines that nothing but the ground connects to the rest goes through the same states
alone, call by call, with the same internal time step, with every scheme but Anderson's: whatever the rest is and however it is moved.
All that is in the memory is the same, also the forces on bodies, rods and points. -/
theorem C106_whole_partial [AddCommGroup Q] [Module ℝ Q] (hw : Within β S S') (hS : Sound S) (hS' : Sound S')
    (hN : ∀ i < S.nr, 0 < S.rodN i) (hl : ∀ h : Holder, ∀ a ∈ h.list S, a.1 < S.nl) (hl' : ∀ h : Holder, ∀ a ∈ h.list S', a.1 < S'.nl)
    (E : Each Q) (conv conv' : State Q × State Q → State Q × State Q → Bool) {fr fr' : Fresh} (hf : SameFresh β S' fr fr')
    (sc : Time.Scheme ℝ) (hsc : Relate.NotAnderson sc) (dtM0 : ℝ) (fuel : ℕ) (calls calls' : List Asked)
    (hc : List.Forall₂ (SameAsked β S') calls calls') (s s' e : Time.Sim ℝ (State Q) (Mem Q FL FP FR FB))
    (h : SameSim β S' s s') (hm : Connected S s.m)
    (he : calls.foldlM (call S (E.aux conv fr) sc dtM0 fuel) s = some e) :
    ∃ e', calls'.foldlM (call S' (E.aux conv' fr') sc dtM0 fuel) s' = some e' ∧ SameSim β S' e e' :=
  simulation_same hw hS hS' hN hl hl' E conv conv' hf sc (.inl hsc) dtM0 fuel calls calls' hc s s' e h hm he

/-- C106: two files that have a part in common.  The common part ends up the same in both, however different the rests are and move. -/
theorem C106_whole_rest_partial [AddCommGroup Q] [Module ℝ Q] {S₁ S₂ : System Q FL FP FR FB Wt} {β₁ β₂ : Names} (hw₁ : Within β₁ S₁ S')
    (hw₂ : Within β₂ S₂ S') (hS₁ : Sound S₁) (hS₂ : Sound S₂) (hS' : Sound S')
    (hN₁ : ∀ i < S₁.nr, 0 < S₁.rodN i) (hN₂ : ∀ i < S₂.nr, 0 < S₂.rodN i)
    (hl₁ : ∀ h : Holder, ∀ a ∈ h.list S₁, a.1 < S₁.nl) (hl₂ : ∀ h : Holder, ∀ a ∈ h.list S₂, a.1 < S₂.nl)
    (hl' : ∀ h : Holder, ∀ a ∈ h.list S', a.1 < S'.nl)
    (E : Each Q) (conv₁ conv₂ : State Q × State Q → State Q × State Q → Bool) {fr₁ fr₂ fr' : Fresh} (hf₁ : SameFresh β₁ S' fr₁ fr')
    (hf₂ : SameFresh β₂ S' fr₂ fr')
    (sc : Time.Scheme ℝ) (hsc : Relate.NotAnderson sc) (dtM0 : ℝ) (fuel : ℕ) (calls₁ calls₂ calls' : List Asked)
    (hc₁ : List.Forall₂ (SameAsked β₁ S') calls₁ calls') (hc₂ : List.Forall₂ (SameAsked β₂ S') calls₂ calls')
    (s₁ s₂ s' e₁ e₂ : Time.Sim ℝ (State Q) (Mem Q FL FP FR FB))
    (h₁ : SameSim β₁ S' s₁ s') (h₂ : SameSim β₂ S' s₂ s') (hm₁ : Connected S₁ s₁.m) (hm₂ : Connected S₂ s₂.m)
    (he₁ : calls₁.foldlM (call S₁ (E.aux conv₁ fr₁) sc dtM0 fuel) s₁ = some e₁)
    (he₂ : calls₂.foldlM (call S₂ (E.aux conv₂ fr₂) sc dtM0 fuel) s₂ = some e₂) :
    e₁.t = e₂.t ∧ (∀ b < S'.nb, e₁.m.body (β₁.body b) = e₂.m.body (β₂.body b)) ∧ (∀ i < S'.nr, e₁.m.rod (β₁.rod i) = e₂.m.rod (β₂.rod i)) ∧
      (∀ i < S'.np, e₁.m.point (β₁.point i) = e₂.m.point (β₂.point i)) ∧ ∀ k < S'.nl, e₁.m.line (β₁.line k) = e₂.m.line (β₂.line k) := by
  obtain ⟨a, ha, h1⟩ := C106_whole_partial hw₁ hS₁ hS' hN₁ hl₁ hl' E conv₁ conv₁ hf₁ sc hsc dtM0 fuel calls₁ calls' hc₁ s₁ s' e₁ h₁ hm₁ he₁
  obtain ⟨b, hb, h2⟩ := C106_whole_partial hw₂ hS₂ hS' hN₂ hl₂ hl' E conv₂ conv₁ hf₂ sc hsc dtM0 fuel calls₂ calls' hc₂ s₂ s' e₂ h₂ hm₂ he₂
  rw [ha] at hb
  cases hb
  exact ⟨h1.t.symm.trans h2.t, fun b hb => (h1.m.body b hb).symm.trans (h2.m.body b hb), fun b hb => (h1.m.rod b hb).symm.trans (h2.m.rod b hb),
    fun b hb => (h1.m.point b hb).symm.trans (h2.m.point b hb), fun b hb => (h1.m.line b hb).symm.trans (h2.m.line b hb)⟩

/-! ## Other numbers -/

/-- `S` is the system `S'` with the objects described in another order; also what is on each body and the lines of each point and rod can be
in another order.  The formulas do not depend on the order in which forces are added. -/
structure Reordered (σ : Order) (S S' : System Q FL FP FR FB Wt) : Prop where
  nb : S.nb = S'.nb
  nr : S.nr = S'.nr
  np : S.np = S'.np
  nl : S.nl = S'.nl
  bodies : ∀ b, σ.body b < S'.nb ↔ b < S'.nb
  rodIds : ∀ i, σ.rod i < S'.nr ↔ i < S'.nr
  points : ∀ i, σ.point i < S'.np ↔ i < S'.np
  lines : ∀ k, σ.line k < S'.nl ↔ k < S'.nl
  bkind : ∀ b, S'.bkind b = S.bkind (σ.body b)
  rkind : ∀ i, S'.rkind i = S.rkind (σ.rod i)
  pkind : ∀ i, S'.pkind i = S.pkind (σ.point i)
  pts : ∀ b : Option ℕ, (S.pts (b.map σ.body)).Perm ((S'.pts b).map fun a => (σ.point a.1, a.2))
  rods : ∀ b : Option ℕ, (S.rods (b.map σ.body)).Perm ((S'.rods b).map fun a => (σ.rod a.1, a.2))
  ends : ∀ i, (S.ends (σ.point i)).Perm ((S'.ends i).map σ.names.endOf)
  endsA : ∀ i, (S.endsA (σ.rod i)).Perm ((S'.endsA i).map σ.names.endOf)
  endsB : ∀ i, (S.endsB (σ.rod i)).Perm ((S'.endsB i).map σ.names.endOf)
  held : ∀ k < S'.nl, ∀ p, ∃ h : Holder, h.There S' ∧ (k, p) ∈ h.list S'
  rodN : ∀ i, S'.rodN i = S.rodN (σ.rod i)
  rodLen : ∀ i, S'.rodLen i = S.rodLen (σ.rod i)
  q0 : ∀ i, S'.q0 i = S.q0 (σ.rod i)
  lineN : ∀ k, S'.lineN k = S.lineN (σ.line k)
  mat : S'.mat = S.mat
  pose : S'.pose = S.pose
  between : S'.between = S.between
  one : S'.one = S.one
  sea : S'.sea = S.sea
  lineF : ∀ k, S'.lineF k = S.lineF (σ.line k)
  pointF : ∀ i r rd w l l', l'.Perm l → S'.pointF i r rd w l = S.pointF (σ.point i) r rd w l'
  rodF : ∀ i quat w q r rd wt lA lA' lB lB', lA'.Perm lA → lB'.Perm lB →
    S'.rodF i quat w q r rd wt lA lB = S.rodF (σ.rod i) quat w q r rd wt lA' lB'
  bodyF : ∀ b pos quat vel w M wt lP lP' lR lR', lP'.Perm lP → lR'.Perm lR →
    S'.bodyF b pos quat vel w M wt lP lR = S.bodyF (σ.body b) pos quat vel w M wt lP' lR'
  pointA : S'.pointA = S.pointA
  rodA : S'.rodA = S.rodA
  pinA : S'.pinA = S.pinA
  quatA : S'.quatA = S.quatA
  bodyA : S'.bodyA = S.bodyA
  bodyPinA : S'.bodyPinA = S.bodyPinA

variable {σ : Order}

theorem Reordered.within (h : Reordered σ S S') : Within σ.names S S' where
  nb b hb := by rw [h.nb]; exact (h.bodies b).mpr hb
  nr b hb := by rw [h.nr]; exact (h.rodIds b).mpr hb
  np b hb := by rw [h.np]; exact (h.points b).mpr hb
  nl b hb := by rw [h.nl]; exact (h.lines b).mpr hb
  bkind b _ := h.bkind b
  rkind b _ := h.rkind b
  pkind b _ := h.pkind b
  pts b _ := h.pts (some b)
  rods b _ := h.rods (some b)
  groundPts a ha := (h.pts none).mem_iff.mpr (List.mem_map_of_mem (f := fun a : ℕ × V => (σ.point a.1, a.2)) ha)
  groundRods a ha := (h.rods none).mem_iff.mpr (List.mem_map_of_mem (f := fun a : ℕ × V × V => (σ.rod a.1, a.2)) ha)
  ptsBack i _ b rel hr := by
    have e : b = (b.map σ.body.symm).map σ.body := by cases b <;> simp
    refine ⟨b.map σ.body.symm, e, ?_⟩
    rw [e] at hr
    obtain ⟨a, ha, h1⟩ := List.mem_map.mp ((h.pts _).mem_iff.mp hr)
    obtain ⟨h2, h3⟩ := Prod.mk.inj h1
    have h2 := σ.point.injective h2
    rw [← h2, ← h3]
    exact ha
  rodsBack i _ b rel hr := by
    have e : b = (b.map σ.body.symm).map σ.body := by cases b <;> simp
    refine ⟨b.map σ.body.symm, e, ?_⟩
    rw [e] at hr
    obtain ⟨a, ha, h1⟩ := List.mem_map.mp ((h.rods _).mem_iff.mp hr)
    obtain ⟨h2, h3⟩ := Prod.mk.inj h1
    have h2 := σ.rod.injective h2
    rw [← h2, ← h3]
    exact ha
  ends i _ := h.ends i
  endsA i _ := h.endsA i
  endsB i _ := h.endsB i
  held := h.held
  rodN i _ := h.rodN i
  rodLen i _ := h.rodLen i
  q0 i _ := h.q0 i
  lineN k _ := h.lineN k
  mat := h.mat
  pose := h.pose
  between := h.between
  one := h.one
  sea := h.sea
  lineF k _ := h.lineF k
  pointF i _ := h.pointF i
  rodF i _ := h.rodF i
  bodyF b _ := h.bodyF b
  pointA := h.pointA
  rodA := h.rodA
  pinA := h.pinA
  quatA := h.quatA
  bodyA := h.bodyA
  bodyPinA := h.bodyPinA

theorem sum_order (f : ℕ ≃ ℕ) (n : ℕ) (hf : ∀ i, f i < n ↔ i < n) {M : Type} [AddCommMonoid M] (g : ℕ → M) :
    ∑ i ∈ Finset.range n, g (f i) = ∑ i ∈ Finset.range n, g i :=
  Finset.sum_equiv f (fun i => by rw [Finset.mem_range, Finset.mem_range, hf]) fun i _ => rfl

theorem ndof_same (h : Reordered σ S S') : ndof S' = ndof S := by
  unfold ndof
  rw [h.np, h.nb, h.nr, h.nl, ← sum_order σ.line _ h.lines fun k => 3 * (S.lineN k - 1)]
  simp only [h.lineN]

theorem residues_same (h : Reordered σ S S') {a b : State Q} {a' b' : State Q} (ha : SameState σ.names S' a a')
    (hb : SameState σ.names S' b b') : residues S' (a', b') = residues S (a, b) := by
  unfold residues
  dsimp only
  rw [h.np, h.nb, h.nr, h.nl]
  congr 1
  congr 1
  congr 1
  · refine Eq.trans (Finset.sum_congr rfl fun k hk => ?_) (sum_order σ.line _ h.lines _)
    rw [← h.lineN, ha.line k (Finset.mem_range.mp hk), hb.line k (Finset.mem_range.mp hk)]
    rfl
  · refine Eq.trans (Finset.sum_congr rfl fun k hk => ?_) (sum_order σ.point _ h.points _)
    rw [ha.point k (Finset.mem_range.mp hk), hb.point k (Finset.mem_range.mp hk)]
    rfl
  · refine Eq.trans (Finset.sum_congr rfl fun k hk => ?_) (sum_order σ.rod _ h.rodIds _)
    rw [ha.rod k (Finset.mem_range.mp hk), hb.rod k (Finset.mem_range.mp hk)]
    rfl
  · refine Eq.trans (Finset.sum_congr rfl fun k hk => ?_) (sum_order σ.body _ h.bodies _)
    rw [ha.body k (Finset.mem_range.mp hk), hb.body k (Finset.mem_range.mp hk)]
    rfl

/-- Iterations end at the same time. -/
theorem converged_same (h : Reordered σ S S') (tol rel : ℝ) {a a' b b' : State Q × State Q} (h1 : SameState σ.names S' a.1 a'.1)
    (h2 : SameState σ.names S' a.2 a'.2) (h3 : SameState σ.names S' b.1 b'.1) (h4 : SameState σ.names S' b.2 b'.2) :
    converged S' tol rel a' b' = converged S tol rel a b := by
  unfold converged
  dsimp only
  have e1 : residues S' a' = residues S a := residues_same h h1 h2
  have e2 : residues S' b' = residues S b := residues_same h h3 h4
  refine decide_eq_decide.mpr ?_
  rw [ndof_same h, e1, e2]

/-- C101: bodies, rods, points and lines can be described in any order, and what is attached to what in any order: every body, rod, point and
line goes through the same states and has the same forces, call by call, with every scheme. -/
theorem C101_whole [AddCommGroup Q] [Module ℝ Q] (hw : Reordered σ S S') (hS : Sound S) (hS' : Sound S')
    (hN : ∀ i < S.nr, 0 < S.rodN i) (hl : ∀ h : Holder, ∀ a ∈ h.list S, a.1 < S.nl) (hl' : ∀ h : Holder, ∀ a ∈ h.list S', a.1 < S'.nl)
    (E : Each Q) (tol rel : ℝ) {fr fr' : Fresh} (hf : SameFresh σ.names S' fr fr')
    (sc : Time.Scheme ℝ) (dtM0 : ℝ) (fuel : ℕ) (calls calls' : List Asked)
    (hc : List.Forall₂ (SameAsked σ.names S') calls calls') (s s' e : Time.Sim ℝ (State Q) (Mem Q FL FP FR FB))
    (h : SameSim σ.names S' s s') (hm : Connected S s.m)
    (he : calls.foldlM (call S (E.aux (converged S tol rel) fr) sc dtM0 fuel) s = some e) :
    ∃ e', calls'.foldlM (call S' (E.aux (converged S' tol rel) fr') sc dtM0 fuel) s' = some e' ∧ SameSim σ.names S' e e' :=
  simulation_same hw.within hS hS' hN hl hl' E _ _ hf sc
    (.inr fun a a' b b' h1 h2 h3 h4 => converged_same hw tol rel h1 h2 h3 h4) dtM0 fuel calls calls' hc s s' e h hm he

/-! ## A case: everything twice -/

/-- Two of a system: the objects of the first have the even numbers, those of the second the odd ones. -/
noncomputable def twice (S : System Q FL FP FR FB Wt) : System Q FL FP FR FB Wt where
  nb := 2 * S.nb
  nr := 2 * S.nr
  np := 2 * S.np
  nl := 2 * S.nl
  bkind b := S.bkind (b / 2)
  rkind i := S.rkind (i / 2)
  pkind i := S.pkind (i / 2)
  pts
    | none => (S.pts none).flatMap fun a => [(2 * a.1, a.2), (2 * a.1 + 1, a.2)]
    | some b => (S.pts (some (b / 2))).map fun a => (2 * a.1 + b % 2, a.2)
  rods
    | none => (S.rods none).flatMap fun a => [(2 * a.1, a.2), (2 * a.1 + 1, a.2)]
    | some b => (S.rods (some (b / 2))).map fun a => (2 * a.1 + b % 2, a.2)
  ends i := (S.ends (i / 2)).map fun a => (2 * a.1 + i % 2, a.2)
  endsA i := (S.endsA (i / 2)).map fun a => (2 * a.1 + i % 2, a.2)
  endsB i := (S.endsB (i / 2)).map fun a => (2 * a.1 + i % 2, a.2)
  rodN i := S.rodN (i / 2)
  rodLen i := S.rodLen (i / 2)
  q0 i := S.q0 (i / 2)
  lineN k := S.lineN (k / 2)
  mat := S.mat
  pose := S.pose
  between := S.between
  one := S.one
  sea := S.sea
  moment k := S.moment (k / 2)
  unit := S.unit
  lineF k := S.lineF (k / 2)
  pointF i := S.pointF (i / 2)
  pointA := S.pointA
  rodF i := S.rodF (i / 2)
  rodA := S.rodA
  pinA := S.pinA
  quatA := S.quatA
  bodyF b := S.bodyF (b / 2)
  bodyA := S.bodyA
  bodyPinA := S.bodyPinA

/-- Who holds it in the one system. -/
def Holder.half : Holder → Holder
  | .point i => .point (i / 2)
  | .rodA i => .rodA (i / 2)
  | .rodB i => .rodB (i / 2)

/-- Which of the two. -/
def Holder.which : Holder → ℕ
  | .point i => i % 2
  | .rodA i => i % 2
  | .rodB i => i % 2

theorem Holder.eq_of (h h' : Holder) (h1 : h.half = h'.half) (h2 : h.which = h'.which) : h = h' := by
  cases h <;> cases h' <;> simp only [Holder.half, Holder.which, reduceCtorEq, Holder.point.injEq, Holder.rodA.injEq, Holder.rodB.injEq] at * <;>
    omega

theorem twice_list (h : Holder) : h.list (twice S) = (h.half.list S).map fun a => (2 * a.1 + h.which, a.2) := by
  cases h <;> rfl

theorem Holder.which_lt (h : Holder) : h.which < 2 := by
  cases h <;> simp only [Holder.which] <;> omega

theorem twice_pts {b : Option ℕ} {a : ℕ × V} (ha : a ∈ (twice S).pts b) : (a.1 / 2, a.2) ∈ S.pts (b.map (· / 2)) ∧
    ∀ c, b = some c → a.1 % 2 = c % 2 := by
  cases b with
  | none =>
    obtain ⟨x, hx, h⟩ := List.mem_flatMap.mp ha
    simp only [List.mem_cons, List.not_mem_nil, or_false] at h
    refine ⟨?_, nofun⟩
    rcases h with rfl | rfl
    · rw [show 2 * x.1 / 2 = x.1 by omega]; exact hx
    · rw [show (2 * x.1 + 1) / 2 = x.1 by omega]; exact hx
  | some c =>
    obtain ⟨x, hx, rfl⟩ := List.mem_map.mp ha
    refine ⟨?_, ?_⟩
    · dsimp only
      rw [show (2 * x.1 + c % 2) / 2 = x.1 by omega]; exact hx
    · rintro _ ⟨⟩
      dsimp only
      omega

theorem twice_rods {b : Option ℕ} {a : ℕ × V × V} (ha : a ∈ (twice S).rods b) : (a.1 / 2, a.2) ∈ S.rods (b.map (· / 2)) ∧
    ∀ c, b = some c → a.1 % 2 = c % 2 := by
  cases b with
  | none =>
    obtain ⟨x, hx, h⟩ := List.mem_flatMap.mp ha
    simp only [List.mem_cons, List.not_mem_nil, or_false] at h
    refine ⟨?_, nofun⟩
    rcases h with rfl | rfl
    · rw [show 2 * x.1 / 2 = x.1 by omega]; exact hx
    · rw [show (2 * x.1 + 1) / 2 = x.1 by omega]; exact hx
  | some c =>
    obtain ⟨x, hx, rfl⟩ := List.mem_map.mp ha
    refine ⟨?_, ?_⟩
    · dsimp only
      rw [show (2 * x.1 + c % 2) / 2 = x.1 by omega]; exact hx
    · rintro _ ⟨⟩
      dsimp only
      omega

theorem halves {b b' : Option ℕ} {i : ℕ} (h : b.map (· / 2) = b'.map (· / 2)) (h1 : ∀ c, b = some c → i % 2 = c % 2)
    (h2 : ∀ c, b' = some c → i % 2 = c % 2) : b = b' := by
  cases b with
  | none => cases b' with
    | none => rfl
    | some _ => cases h
  | some c => cases b' with
    | none => cases h
    | some c' =>
      have h := Option.some.inj h
      have := h1 c rfl
      have := h2 c' rfl
      dsimp only at h
      congr 1
      omega

theorem twice_sound (hS : Sound S) : Sound (twice S) where
  once h h' a ha ha' := by
    rw [twice_list] at ha ha'
    obtain ⟨x, hx, rfl⟩ := List.mem_map.mp ha
    obtain ⟨y, hy, e⟩ := List.mem_map.mp ha'
    obtain ⟨e1, e2⟩ := Prod.mk.inj e
    have l := h.which_lt
    have l' := h'.which_lt
    have e3 : y = x := Prod.ext (by omega) e2
    subst e3
    exact Holder.eq_of _ _ (hS.once _ _ y hx hy) (by omega)
  lineN k := hS.lineN _
  pts b b' a ha a' ha' h := by
    obtain ⟨h1, h2⟩ := twice_pts ha
    obtain ⟨h1', h2'⟩ := twice_pts ha'
    obtain ⟨e1, e2⟩ := hS.pts _ _ _ h1 _ h1' (by dsimp only; rw [h])
    exact ⟨halves e1 h2 (by rw [h]; exact h2'), Prod.ext h (Prod.mk.inj e2).2⟩
  rods b b' a ha a' ha' h := by
    obtain ⟨h1, h2⟩ := twice_rods ha
    obtain ⟨h1', h2'⟩ := twice_rods ha'
    obtain ⟨e1, e2⟩ := hS.rods _ _ _ h1 _ h1' (by dsimp only; rw [h])
    exact ⟨halves e1 h2 (by rw [h]; exact h2'), Prod.ext h (Prod.mk.inj e2).2⟩
  ptsKind b a ha := hS.ptsKind _ _ (twice_pts ha).1
  rodsKind b a ha := hS.rodsKind _ _ (twice_rods ha).1
  rodsNum b a ha := by
    have : a.1 / 2 < S.nr := hS.rodsNum _ _ (twice_rods ha).1
    show a.1 < 2 * S.nr
    omega
  ptsNum b a ha := by
    have : a.1 / 2 < S.np := hS.ptsNum _ _ (twice_pts ha).1
    show a.1 < 2 * S.np
    omega
  bodyNum b h := by
    have : b / 2 < S.nb := hS.bodyNum (b / 2) (by
      rcases h with ⟨a, ha⟩ | ⟨a, ha⟩
      · exact .inl ⟨_, (twice_pts ha).1⟩
      · exact .inr ⟨_, (twice_rods ha).1⟩)
    show b < 2 * S.nb
    omega

theorem twice_lines (hl : ∀ h : Holder, ∀ a ∈ h.list S, a.1 < S.nl) (h : Holder) : ∀ a ∈ h.list (twice S), a.1 < (twice S).nl := by
  intro a ha
  rw [twice_list] at ha
  obtain ⟨x, hx, rfl⟩ := List.mem_map.mp ha
  have := hl _ x hx
  have := h.which_lt
  show 2 * x.1 + h.which < 2 * S.nl
  omega

/-- The numbers of the first (`c = 0`) or of the second (`c = 1`) of the two. -/
def nth (c : ℕ) : Names := ⟨(2 * · + c), (2 * · + c), (2 * · + c), (2 * · + c)⟩

/-- Forces are added up in any order. -/
structure Unordered (S : System Q FL FP FR FB Wt) : Prop where
  pointF : ∀ i r rd w l l', l'.Perm l → S.pointF i r rd w l = S.pointF i r rd w l'
  rodF : ∀ i quat w q r rd wt lA lA' lB lB', lA'.Perm lA → lB'.Perm lB →
    S.rodF i quat w q r rd wt lA lB = S.rodF i quat w q r rd wt lA' lB'
  bodyF : ∀ b pos quat vel w M wt lP lP' lR lR', lP'.Perm lP → lR'.Perm lR →
    S.bodyF b pos quat vel w M wt lP lR = S.bodyF b pos quat vel w M wt lP' lR'

theorem twice_within (hu : Unordered S) (held : ∀ k < S.nl, ∀ p, ∃ h : Holder, h.There S ∧ (k, p) ∈ h.list S) (c : ℕ) (hc : c < 2) :
    Within (nth c) (twice S) S := by
  have half : ∀ i, (2 * i + c) / 2 = i := fun i => by omega
  have rest : ∀ i, (2 * i + c) % 2 = c := fun i => by omega
  constructor
  case nb => intro b hb; show 2 * b + c < 2 * S.nb; omega
  case nr => intro b hb; show 2 * b + c < 2 * S.nr; omega
  case np => intro b hb; show 2 * b + c < 2 * S.np; omega
  case nl => intro b hb; show 2 * b + c < 2 * S.nl; omega
  case bkind => intro b hb; show _ = S.bkind ((2 * b + c) / 2); rw [half]
  case rkind => intro b hb; show _ = S.rkind ((2 * b + c) / 2); rw [half]
  case pkind => intro b hb; show _ = S.pkind ((2 * b + c) / 2); rw [half]
  case pts =>
    intro b hb
    show ((S.pts (some ((2 * b + c) / 2))).map fun a => (2 * a.1 + (2 * b + c) % 2, a.2)).Perm _
    rw [half, rest]
    exact .refl _
  case rods =>
    intro b hb
    show ((S.rods (some ((2 * b + c) / 2))).map fun a => (2 * a.1 + (2 * b + c) % 2, a.2)).Perm _
    rw [half, rest]
    exact .refl _
  case groundPts =>
    intro a ha
    refine List.mem_flatMap.mpr ⟨a, ha, ?_⟩
    obtain rfl | rfl : c = 0 ∨ c = 1 := by omega
    · exact List.mem_cons_self
    · exact List.mem_cons_of_mem _ List.mem_cons_self
  case groundRods =>
    intro a ha
    refine List.mem_flatMap.mpr ⟨a, ha, ?_⟩
    obtain rfl | rfl : c = 0 ∨ c = 1 := by omega
    · exact List.mem_cons_self
    · exact List.mem_cons_of_mem _ List.mem_cons_self
  case ptsBack =>
    intro i hi b rel hr
    obtain ⟨h1, h2⟩ := twice_pts hr
    dsimp only [nth] at h1 h2
    rw [half] at h1
    rw [rest] at h2
    refine ⟨_, ?_, h1⟩
    cases b with
    | none => rfl
    | some b =>
      have := h2 b rfl
      show some b = some (2 * (b / 2) + c)
      congr 1
      omega
  case rodsBack =>
    intro i hi b rel hr
    obtain ⟨h1, h2⟩ := twice_rods hr
    dsimp only [nth] at h1 h2
    rw [half] at h1
    rw [rest] at h2
    refine ⟨_, ?_, h1⟩
    cases b with
    | none => rfl
    | some b =>
      have := h2 b rfl
      show some b = some (2 * (b / 2) + c)
      congr 1
      omega
  case ends =>
    intro i hi
    show ((S.ends ((2 * i + c) / 2)).map fun a => (2 * a.1 + (2 * i + c) % 2, a.2)).Perm _
    rw [half, rest]
    exact .refl _
  case endsA =>
    intro i hi
    show ((S.endsA ((2 * i + c) / 2)).map fun a => (2 * a.1 + (2 * i + c) % 2, a.2)).Perm _
    rw [half, rest]
    exact .refl _
  case endsB =>
    intro i hi
    show ((S.endsB ((2 * i + c) / 2)).map fun a => (2 * a.1 + (2 * i + c) % 2, a.2)).Perm _
    rw [half, rest]
    exact .refl _
  case held => exact held
  case rodN => intro i hi; show _ = S.rodN ((2 * i + c) / 2); rw [half]
  case rodLen => intro i hi; show _ = S.rodLen ((2 * i + c) / 2); rw [half]
  case q0 => intro i hi; show _ = S.q0 ((2 * i + c) / 2); rw [half]
  case lineN => intro i hi; show _ = S.lineN ((2 * i + c) / 2); rw [half]
  case lineF => intro i hi; show _ = S.lineF ((2 * i + c) / 2); rw [half]
  case pointF =>
    intro i hi r rd w l l' h
    show _ = S.pointF ((2 * i + c) / 2) r rd w l'
    rw [half]
    exact hu.pointF i r rd w l l' h
  case rodF =>
    intro i hi quat w q r rd wt lA lA' lB lB' h h'
    show _ = S.rodF ((2 * i + c) / 2) quat w q r rd wt lA' lB'
    rw [half]
    exact hu.rodF i quat w q r rd wt lA lA' lB lB' h h'
  case bodyF =>
    intro i hi pos quat vel w M wt lP lP' lR lR' h h'
    show _ = S.bodyF ((2 * i + c) / 2) pos quat vel w M wt lP' lR'
    rw [half]
    exact hu.bodyF i pos quat vel w M wt lP lP' lR lR' h h'
  all_goals rfl

/-- The other of the two. -/
def otherOne : ℕ ≃ ℕ where
  toFun n := 2 * (n / 2) + (1 - n % 2)
  invFun n := 2 * (n / 2) + (1 - n % 2)
  left_inv n := by dsimp only; omega
  right_inv n := by dsimp only; omega

theorem other_half (n : ℕ) : otherOne n / 2 = n / 2 := by
  show (2 * (n / 2) + (1 - n % 2)) / 2 = _
  omega

theorem other_mod (n : ℕ) : otherOne n % 2 = 1 - n % 2 := by
  show (2 * (n / 2) + (1 - n % 2)) % 2 = _
  omega

/-- The two exchanged. -/
def exchange : Order := ⟨otherOne, otherOne, otherOne, otherOne⟩

theorem other_add (n b : ℕ) : 2 * n + otherOne b % 2 = otherOne (2 * n + b % 2) := by
  show 2 * n + (2 * (b / 2) + (1 - b % 2)) % 2 = 2 * ((2 * n + b % 2) / 2) + (1 - (2 * n + b % 2) % 2)
  omega

theorem other_lt (n i : ℕ) : otherOne i < 2 * n ↔ i < 2 * n := by
  show 2 * (i / 2) + (1 - i % 2) < 2 * n ↔ i < 2 * n
  omega

theorem twice_exchange (hu : Unordered S) (held : ∀ k < S.nl, ∀ p, ∃ h : Holder, h.There S ∧ (k, p) ∈ h.list S) :
    Reordered exchange (twice S) (twice S) := by
  have two : ∀ {X : Type} (l : List (ℕ × X)), (l.flatMap fun a => [(2 * a.1, a.2), (2 * a.1 + 1, a.2)]).Perm
      ((l.flatMap fun a => [(2 * a.1, a.2), (2 * a.1 + 1, a.2)]).map fun a => (otherOne a.1, a.2)) := by
    intro X l
    induction l with
    | nil => exact .refl _
    | cons a l ih =>
      rw [List.flatMap_cons, List.map_append]
      refine List.Perm.append ?_ ih
      have e1 : otherOne (2 * a.1) = 2 * a.1 + 1 := by show 2 * (2 * a.1 / 2) + (1 - 2 * a.1 % 2) = _; omega
      have e2 : otherOne (2 * a.1 + 1) = 2 * a.1 := by show 2 * ((2 * a.1 + 1) / 2) + (1 - (2 * a.1 + 1) % 2) = _; omega
      simp only [List.map_cons, List.map_nil, e1, e2]
      exact .swap _ _ _
  have moved : ∀ {X : Type} (l : List (ℕ × X)) (b : ℕ), (l.map fun a => (2 * a.1 + otherOne b % 2, a.2)) =
      (l.map fun a => (2 * a.1 + b % 2, a.2)).map fun a => (otherOne a.1, a.2) := by
    intro X l b
    rw [List.map_map]
    refine List.map_congr_left fun a _ => ?_
    rw [other_add]
    rfl
  constructor
  case bodies => exact fun b => other_lt _ _
  case rodIds => exact fun b => other_lt _ _
  case points => exact fun b => other_lt _ _
  case lines => exact fun b => other_lt _ _
  case bkind => intro b; show _ = S.bkind (otherOne b / 2); rw [other_half]; rfl
  case rkind => intro b; show _ = S.rkind (otherOne b / 2); rw [other_half]; rfl
  case pkind => intro b; show _ = S.pkind (otherOne b / 2); rw [other_half]; rfl
  case pts =>
    intro b
    cases b with
    | none => exact two _
    | some b =>
      show ((S.pts (some (otherOne b / 2))).map fun a => (2 * a.1 + otherOne b % 2, a.2)).Perm _
      rw [other_half, moved]
      exact .refl _
  case rods =>
    intro b
    cases b with
    | none => exact two _
    | some b =>
      show ((S.rods (some (otherOne b / 2))).map fun a => (2 * a.1 + otherOne b % 2, a.2)).Perm _
      rw [other_half, moved]
      exact .refl _
  case ends =>
    intro i
    show ((S.ends (otherOne i / 2)).map fun a => (2 * a.1 + otherOne i % 2, a.2)).Perm _
    rw [other_half, moved]
    exact .refl _
  case endsA =>
    intro i
    show ((S.endsA (otherOne i / 2)).map fun a => (2 * a.1 + otherOne i % 2, a.2)).Perm _
    rw [other_half, moved]
    exact .refl _
  case endsB =>
    intro i
    show ((S.endsB (otherOne i / 2)).map fun a => (2 * a.1 + otherOne i % 2, a.2)).Perm _
    rw [other_half, moved]
    exact .refl _
  case held =>
    intro k hk p
    have hk' : k < 2 * S.nl := hk
    obtain ⟨h, h1, h2⟩ := held (k / 2) (by omega) p
    have key : ∀ h' : Holder, h'.half = h → h'.which = k % 2 → (k, p) ∈ h'.list (twice S) := by
      rintro h' rfl hw
      rw [twice_list, hw]
      refine List.mem_map.mpr ⟨_, h2, ?_⟩
      dsimp only
      congr 1
      omega
    cases h with
    | point i =>
      have : i < S.np := h1
      refine ⟨.point (2 * i + k % 2), ?_, key _ ?_ ?_⟩
      · show 2 * i + k % 2 < 2 * S.np; omega
      · simp only [Holder.half, Holder.point.injEq]; omega
      · simp only [Holder.which]; omega
    | rodA i =>
      have : i < S.nr := h1
      refine ⟨.rodA (2 * i + k % 2), ?_, key _ ?_ ?_⟩
      · show 2 * i + k % 2 < 2 * S.nr; omega
      · simp only [Holder.half, Holder.rodA.injEq]; omega
      · simp only [Holder.which]; omega
    | rodB i =>
      have : i < S.nr := h1
      refine ⟨.rodB (2 * i + k % 2), ?_, key _ ?_ ?_⟩
      · show 2 * i + k % 2 < 2 * S.nr; omega
      · simp only [Holder.half, Holder.rodB.injEq]; omega
      · simp only [Holder.which]; omega
  case rodN => intro i; show _ = S.rodN (otherOne i / 2); rw [other_half]; rfl
  case rodLen => intro i; show _ = S.rodLen (otherOne i / 2); rw [other_half]; rfl
  case q0 => intro i; show _ = S.q0 (otherOne i / 2); rw [other_half]; rfl
  case lineN => intro i; show _ = S.lineN (otherOne i / 2); rw [other_half]; rfl
  case lineF => intro i; show _ = S.lineF (otherOne i / 2); rw [other_half]; rfl
  case pointF =>
    intro i r rd w l l' h
    show _ = S.pointF (otherOne i / 2) r rd w l'
    rw [other_half]
    exact hu.pointF _ r rd w l l' h
  case rodF =>
    intro i quat w q r rd wt lA lA' lB lB' h h'
    show _ = S.rodF (otherOne i / 2) quat w q r rd wt lA' lB'
    rw [other_half]
    exact hu.rodF _ quat w q r rd wt lA lA' lB lB' h h'
  case bodyF =>
    intro i pos quat vel w M wt lP lP' lR lR' h h'
    show _ = S.bodyF (otherOne i / 2) pos quat vel w M wt lP' lR'
    rw [other_half]
    exact hu.bodyF _ pos quat vel w M wt lP lP' lR lR' h h'
  all_goals rfl

theorem hung_unordered : Unordered hung := ⟨fun _ _ _ _ _ _ _ => rfl, fun _ _ _ _ _ _ _ _ _ _ _ _ _ => rfl, fun _ _ _ _ _ _ _ _ _ _ _ _ _ => rfl⟩

theorem hung_numbers (h : Holder) : ∀ a ∈ h.list hung, a.1 < hung.nl := by
  intro a ha
  rcases h with (_ | _ | _ | i) | i | (_ | i) <;> simp [Holder.list, hung] at ha ⊢ <;> simp_all

theorem hung_taken (k : ℕ) (hk : k < hung.nl) (p : EndPt) : ∃ h : Holder, h.There hung ∧ (k, p) ∈ h.list hung := by
  have hk' : k < 2 := hk
  obtain rfl | rfl : k = 0 ∨ k = 1 := by omega
  · cases p
    case BOTTOM => exact ⟨.point 1, by simp [Holder.There, hung], by simp [Holder.list, hung]⟩
    case TOP => exact ⟨.point 0, by simp [Holder.There, hung], by simp [Holder.list, hung]⟩
  · cases p
    case BOTTOM => exact ⟨.rodB 0, by simp [Holder.There, hung], by simp [Holder.list, hung]⟩
    case TOP => exact ⟨.point 2, by simp [Holder.There, hung], by simp [Holder.list, hung]⟩

/-- Everything is evaluated in each step. -/
def every : Fresh := ⟨fun _ => true, fun _ => true, fun _ => true, fun _ => true⟩

/-- The states of the first of the two. -/
def firstState (x : State Q) : State Q := (fun k => x.1 (2 * k), fun i => x.2.1 (2 * i), fun i => x.2.2.1 (2 * i), fun b => x.2.2.2 (2 * b))

/-- All of the first of the two. -/
def firstOf (s : Time.Sim ℝ (State Q) (Mem Q FL FP FR FB)) : Time.Sim ℝ (State Q) (Mem Q FL FP FR FB) :=
  ⟨s.t, s.tl, fun k => firstState (s.r k), fun k => firstState (s.rd k), s.n,
    ⟨s.m.t, fun k => s.m.line (2 * k), fun i => s.m.point (2 * i), fun i => s.m.rod (2 * i), fun b => s.m.body (2 * b), s.m.ground⟩⟩

theorem first_same [AddCommGroup Q] [Module ℝ Q] (S : System Q FL FP FR FB Wt) (s : Time.Sim ℝ (State Q) (Mem Q FL FP FR FB)) :
    SameSim (nth 0) S s (firstOf s) :=
  ⟨rfl, rfl, rfl, ⟨fun _ _ => rfl, fun _ _ => rfl, fun _ _ => rfl, fun _ _ => rfl⟩,
    fun _ => ⟨fun _ _ => rfl, fun _ _ => rfl, fun _ _ => rfl, fun _ _ => rfl⟩,
    rfl, rfl, fun _ _ => rfl, fun _ _ => rfl, fun _ _ => rfl, fun _ _ => rfl⟩

/-- Such simulations there are: after the first `Update` the two are connected, whatever was in the memory, and the memory of the first alone
is read off from that of both. -/
example (t tl : ℝ) (e : State ℝ) (m : Mem ℝ Unit Unit Unit Unit) (rd : ℕ → State ℝ) : ∃ s s' : Time.Sim ℝ (State ℝ) (Mem ℝ Unit Unit Unit Unit),
    s.m = update (twice hung) t tl e m ∧ Connected (twice hung) s.m ∧ SameSim (nth 0) hung s s' := by
  have h := C110_start (twice_sound hung_sound) (fun i hi hk => ?_) (fun i _ hk => ?_) (fun _ => 0) t tl e m
  · have e0 : fixBodies (twice hung) (fun _ => 0) m = m := by simp [fixBodies, fixBody, twice, hung, List.range_succ]
    rw [e0] at h
    exact ⟨⟨0, 0, fun _ => e, rd, 0, _⟩, firstOf _, rfl, h, first_same hung _⟩
  · have hi : i < 6 := hi
    have hk : hung.pkind (i / 2) = .FIXED := hk
    obtain h | h | h : i / 2 = 0 ∨ i / 2 = 1 ∨ i / 2 = 2 := by omega
    · refine ⟨some (i % 2), ![1, 0, 0], ?_⟩
      refine List.mem_map.mpr ⟨(0, ![1, 0, 0]), ?_, ?_⟩
      · rw [show i % 2 / 2 = 0 by omega]; exact List.mem_singleton.mpr rfl
      · dsimp only
        congr 1
        omega
    · refine ⟨none, ![10, 0, -50], List.mem_flatMap.mpr ⟨(1, ![10, 0, -50]), List.mem_singleton.mpr rfl, ?_⟩⟩
      obtain rfl | rfl : i = 2 ∨ i = 3 := by omega
      · exact List.mem_cons_self
      · exact List.mem_cons_of_mem _ List.mem_cons_self
    · rw [h] at hk
      simp [hung] at hk
  · have hk : hung.rkind (i / 2) = .FIXED := hk
    simp [hung] at hk

/-- Two bodies, each with its rod, points and lines: the first moves as if it were alone, whatever the second does. -/
example (E : Each ℝ) (conv conv' : State ℝ × State ℝ → State ℝ × State ℝ → Bool) (sc : Time.Scheme ℝ) (hsc : Relate.NotAnderson sc) (dtM0 : ℝ)
    (fuel : ℕ) (calls calls' : List Asked) (hc : List.Forall₂ (SameAsked (nth 0) hung) calls calls')
    (s s' e : Time.Sim ℝ (State ℝ) (Mem ℝ Unit Unit Unit Unit)) (h : SameSim (nth 0) hung s s') (hm : Connected (twice hung) s.m)
    (he : calls.foldlM (call (twice hung) (E.aux conv every) sc dtM0 fuel) s = some e) :
    ∃ e', calls'.foldlM (call hung (E.aux conv' every) sc dtM0 fuel) s' = some e' ∧
      e'.m.body 0 = e.m.body 0 ∧ e'.m.rod 0 = e.m.rod 0 ∧ e'.m.line 1 = e.m.line 2 := by
  obtain ⟨e', h1, h2⟩ := C106_whole_partial (twice_within hung_unordered hung_taken 0 (by omega)) (twice_sound hung_sound) hung_sound
    (fun i _ => by simp [twice, hung]) (twice_lines hung_numbers) hung_numbers E conv conv'
    (fr' := every) ⟨fun _ _ => rfl, fun _ _ => rfl, fun _ _ => rfl, fun _ _ => rfl⟩ sc hsc dtM0 fuel calls calls' hc s s' e h hm he
  exact ⟨e', h1, h2.m.body 0 (by simp [hung]), h2.m.rod 0 (by simp [hung]), h2.m.line 1 (by simp [hung])⟩

/-- And the two can be described in either order. -/
example (E : Each ℝ) (tol rel : ℝ) (sc : Time.Scheme ℝ) (dtM0 : ℝ)
    (fuel : ℕ) (calls calls' : List Asked) (hc : List.Forall₂ (SameAsked exchange.names (twice hung)) calls calls')
    (s s' e : Time.Sim ℝ (State ℝ) (Mem ℝ Unit Unit Unit Unit)) (h : SameSim exchange.names (twice hung) s s') (hm : Connected (twice hung) s.m)
    (he : calls.foldlM (call (twice hung)
      (E.aux (converged (twice hung) tol rel) every) sc dtM0 fuel) s = some e) :
    ∃ e', calls'.foldlM (call (twice hung)
      (E.aux (converged (twice hung) tol rel) every) sc dtM0 fuel) s' = some e' ∧
      e'.m.body 0 = e.m.body 1 ∧ e'.m.body 1 = e.m.body 0 := by
  obtain ⟨e', h1, h2⟩ := C101_whole (twice_exchange hung_unordered hung_taken) (twice_sound hung_sound) (twice_sound hung_sound)
    (fun i _ => by simp [twice, hung]) (twice_lines hung_numbers) (twice_lines hung_numbers) E tol rel
    (fr' := every) ⟨fun _ _ => rfl, fun _ _ => rfl, fun _ _ => rfl, fun _ _ => rfl⟩ sc dtM0 fuel calls calls' hc s s' e h hm he
  exact ⟨e', h1, h2.m.body 0 (by simp [hung, twice]), h2.m.body 1 (by simp [hung, twice])⟩

end MD.Whole
