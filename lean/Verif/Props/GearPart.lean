import Verif.Lemmas.GearPart
import Verif.Props.WholeBudget

/-!
# C101, C106 with the formulas of the code: other numbers, and what is not connected
-/

set_option linter.unusedSimpArgs false
set_option linter.unusedSectionVars false
set_option linter.unusedVariables false
set_option linter.unnecessarySeqFocus false

namespace MD.Whole

open MD.Mooring Matrix MD.Mat MD.Rot
open MD.Moored (Kind)

variable {G G' : Gear}

theorem Gear.Rightly.renumbered {σ : Order} (hσ : σ.Of G) (h : G.Rightly) : (G.renumbered σ).Rightly := by
  let old : Holder → Holder := fun hd => match hd with
    | .point i => .point (σ.point.symm i)
    | .rodA i => .rodA (σ.rod.symm i)
    | .rodB i => .rodB (σ.rod.symm i)
  have hold : ∀ hd : Holder, hd.list (G.renumbered σ).code = ((old hd).list G.code).map σ.names.endOf := by
    intro hd
    cases hd <;> rfl
  have inj : ∀ a b : Holder, old a = old b → a = b := by
    intro a b hab
    cases a <;> cases b <;> simp only [old, Holder.point.injEq, Holder.rodA.injEq, Holder.rodB.injEq, reduceCtorEq, EmbeddingLike.apply_eq_iff_eq] at hab ⊢ <;> exact hab
  have endInj : ∀ a b : ℕ × EndPt, σ.names.endOf a = σ.names.endOf b → a = b := by
    rintro ⟨a, p⟩ ⟨b, q⟩ hab
    simpa [Names.endOf, Order.names] using hab
  have optInj : ∀ b b' : Option ℕ, b.map σ.body.symm = b'.map σ.body.symm → b = b' := by
    intro b b' hb
    cases b <;> cases b' <;> simp_all
  refine ⟨⟨?_, ?_, ?_, ?_, ?_, ?_, ?_, ?_, ?_⟩, ?_, ?_, ?_⟩
  · intro a b x ha hb
    rw [hold] at ha hb
    obtain ⟨y, hy, rfl⟩ := List.mem_map.1 ha
    obtain ⟨z, hz, e⟩ := List.mem_map.1 hb
    rw [endInj _ _ e] at hz
    exact inj _ _ (h.sound.once _ _ _ hy hz)
  · intro k
    exact h.sound.lineN _
  · intro b b' a ha a' ha' e
    obtain ⟨y, hy, rfl⟩ := List.mem_map.1 ha
    obtain ⟨z, hz, rfl⟩ := List.mem_map.1 ha'
    have e' : y.1 = z.1 := by simpa using e
    obtain ⟨h1, h2⟩ := h.sound.pts _ _ y hy z hz e'
    exact ⟨optInj _ _ h1, by rw [h2]⟩
  · intro b b' a ha a' ha' e
    obtain ⟨y, hy, rfl⟩ := List.mem_map.1 ha
    obtain ⟨z, hz, rfl⟩ := List.mem_map.1 ha'
    have e' : y.1 = z.1 := by simpa using e
    obtain ⟨h1, h2⟩ := h.sound.rods _ _ y hy z hz e'
    exact ⟨optInj _ _ h1, by rw [h2]⟩
  · intro b a ha
    obtain ⟨y, hy, rfl⟩ := List.mem_map.1 ha
    show G.pkind (σ.point.symm (σ.point y.1)) = _
    rw [Equiv.symm_apply_apply]
    exact h.sound.ptsKind _ y hy
  · intro b a ha
    obtain ⟨y, hy, rfl⟩ := List.mem_map.1 ha
    show G.rkind (σ.rod.symm (σ.rod y.1)) = _ ∨ G.rkind (σ.rod.symm (σ.rod y.1)) = _
    rw [Equiv.symm_apply_apply]
    exact h.sound.rodsKind _ y hy
  · intro b a ha
    obtain ⟨y, hy, rfl⟩ := List.mem_map.1 ha
    exact (hσ.rods _).2 (h.sound.rodsNum _ y hy)
  · intro b a ha
    obtain ⟨y, hy, rfl⟩ := List.mem_map.1 ha
    exact (hσ.points _).2 (h.sound.ptsNum _ y hy)
  · intro b hb
    have : σ.body.symm b < G.nb := by
      apply h.sound.bodyNum
      rcases hb with ⟨a, ha⟩ | ⟨a, ha⟩
      · obtain ⟨y, hy, rfl⟩ := List.mem_map.1 ha
        exact .inl ⟨y, hy⟩
      · obtain ⟨y, hy, rfl⟩ := List.mem_map.1 ha
        exact .inr ⟨y, hy⟩
    have := (hσ.bodies _).2 this
    rwa [Equiv.apply_symm_apply] at this
  · intro i hi
    exact h.long _ ((hσ.rods _).1 (by rwa [Equiv.apply_symm_apply]))
  · intro k hk p
    have hk' : σ.line.symm k < G.nl := (hσ.lines _).1 (by rwa [Equiv.apply_symm_apply])
    have e : σ.names.endOf (σ.line.symm k, p) = (k, p) := by simp [Names.endOf, Order.names]
    rcases h.held _ hk' p with ⟨i, hi, ha⟩ | ⟨i, hi, ha | ha⟩
    · refine .inl ⟨σ.point i, (hσ.points _).2 hi, List.mem_map.2 ⟨_, ?_, e⟩⟩
      rwa [Equiv.symm_apply_apply]
    · refine .inr ⟨σ.rod i, (hσ.rods _).2 hi, .inl (List.mem_map.2 ⟨_, ?_, e⟩)⟩
      rwa [Equiv.symm_apply_apply]
    · refine .inr ⟨σ.rod i, (hσ.rods _).2 hi, .inr (List.mem_map.2 ⟨_, ?_, e⟩)⟩
      rwa [Equiv.symm_apply_apply]
  · intro hd a ha
    rw [hold] at ha
    obtain ⟨y, hy, rfl⟩ := List.mem_map.1 ha
    exact (hσ.lines _).2 (h.endsNum _ y hy)

/-- **C101** with bodies and rods and the formulas of the code: the numbers of the objects, which are their order in the input file, do not
matter.  A whole simulation with the objects under other numbers ends with all of them in the same places, with the same velocities and the same
forces, with every scheme. -/
theorem C101_gear {σ : Order} (hσ : σ.Of G) (hG : G.Rightly) (E : Each (Quat ℝ)) (tol rel : ℝ) {fr fr' : Fresh}
    (hf : SameFresh σ.names G.code fr fr') (sc : Time.Scheme ℝ) (dtM0 : ℝ) (fuel : ℕ) (calls calls' : List Asked)
    (hc : List.Forall₂ (SameAsked σ.names G.code) calls calls') (s s' e : Time.Sim ℝ (State (Quat ℝ)) Objects)
    (h : SameSim σ.names G.code s s') (hm : Connected (G.renumbered σ).code s.m)
    (he : calls.foldlM (call (G.renumbered σ).code (E.aux (converged (G.renumbered σ).code tol rel) fr) sc dtM0 fuel) s = some e) :
    ∃ e', calls'.foldlM (call G.code (E.aux (converged G.code tol rel) fr') sc dtM0 fuel) s' = some e' ∧ SameSim σ.names G.code e e' :=
  have hR := hG.renumbered hσ
  C101_whole (Gear.renumbered_code hσ hG) hR.sound hG.sound hR.long hR.endsNum hG.endsNum E tol rel hf sc dtM0 fuel calls calls' hc s s' e h hm he

/-- **C106** with bodies and rods and the formulas of the code: a part that nothing but the ground connects to the rest does what it does alone. -/
theorem C106_gear_partial {β : Names} (hP : Gear.Part β G G') (hG : G.Rightly) (hG' : G'.Rightly) (E : Each (Quat ℝ))
    (conv conv' : State (Quat ℝ) × State (Quat ℝ) → State (Quat ℝ) × State (Quat ℝ) → Bool) {fr fr' : Fresh}
    (hf : SameFresh β G'.code fr fr') (sc : Time.Scheme ℝ) (hsc : Relate.NotAnderson sc) (dtM0 : ℝ) (fuel : ℕ) (calls calls' : List Asked)
    (hc : List.Forall₂ (SameAsked β G'.code) calls calls') (s s' e : Time.Sim ℝ (State (Quat ℝ)) Objects)
    (h : SameSim β G'.code s s') (hm : Connected G.code s.m)
    (he : calls.foldlM (call G.code (E.aux conv fr) sc dtM0 fuel) s = some e) :
    ∃ e', calls'.foldlM (call G'.code (E.aux conv' fr') sc dtM0 fuel) s' = some e' ∧ SameSim β G'.code e e' :=
  C106_whole_partial hP.within hG.sound hG'.sound hG.long hG.endsNum hG'.endsNum E conv conv' hf sc hsc dtM0 fuel calls calls' hc s s' e h hm he

/-! ## Two systems in one file -/

/-- A point or rod of a second system, after `n` others. -/
def later {α : Type} (n : ℕ) (l : List (ℕ × α)) : List (ℕ × α) := l.map fun a => (n + a.1, a.2)

/-- Two systems described in one file, the second after the first, in the sea of the first. -/
def Gear.beside (G₁ G₂ : Gear) : Gear where
  nb := G₁.nb + G₂.nb
  nr := G₁.nr + G₂.nr
  np := G₁.np + G₂.np
  nl := G₁.nl + G₂.nl
  bkind b := if b < G₁.nb then G₁.bkind b else G₂.bkind (b - G₁.nb)
  rkind i := if i < G₁.nr then G₁.rkind i else G₂.rkind (i - G₁.nr)
  pkind i := if i < G₁.np then G₁.pkind i else G₂.pkind (i - G₁.np)
  pts b := match b with
    | none => G₁.pts none ++ later G₁.np (G₂.pts none)
    | some b => if b < G₁.nb then G₁.pts (some b) else later G₁.np (G₂.pts (some (b - G₁.nb)))
  rods b := match b with
    | none => G₁.rods none ++ later G₁.nr (G₂.rods none)
    | some b => if b < G₁.nb then G₁.rods (some b) else later G₁.nr (G₂.rods (some (b - G₁.nb)))
  ends i := if i < G₁.np then G₁.ends i else later G₁.nl (G₂.ends (i - G₁.np))
  endsA i := if i < G₁.nr then G₁.endsA i else later G₁.nl (G₂.endsA (i - G₁.nr))
  endsB i := if i < G₁.nr then G₁.endsB i else later G₁.nl (G₂.endsB (i - G₁.nr))
  q0 i := if i < G₁.nr then G₁.q0 i else G₂.q0 (i - G₁.nr)
  line k := if k < G₁.nl then G₁.line k else G₂.line (k - G₁.nl)
  point i := if i < G₁.np then G₁.point i else G₂.point (i - G₁.np)
  rod i := if i < G₁.nr then G₁.rod i else G₂.rod (i - G₁.nr)
  body b := if b < G₁.nb then G₁.body b else G₂.body (b - G₁.nb)
  env := G₁.env
  kin := G₁.kin
  half := G₁.half

/-- The first system keeps its numbers. -/
def sameNames : Names := ⟨id, id, id, id⟩

variable {G₁ G₂ : Gear}

theorem mem_later {α : Type} {n : ℕ} {l : List (ℕ × α)} {a : ℕ × α} (h : a ∈ later n l) : ∃ b ∈ l, a = (n + b.1, b.2) := by
  obtain ⟨b, hb, rfl⟩ := List.mem_map.1 h
  exact ⟨b, hb, rfl⟩

theorem sameNames_end : sameNames.endOf = id := rfl

theorem beside_part (h : G₁.Rightly) : Gear.Part sameNames (G₁.beside G₂) G₁ where
  nb b hb := Nat.lt_add_right _ hb
  nr b hb := Nat.lt_add_right _ hb
  np b hb := Nat.lt_add_right _ hb
  nl b hb := Nat.lt_add_right _ hb
  bkind b hb := (if_pos hb).symm
  rkind b hb := (if_pos hb).symm
  pkind b hb := (if_pos hb).symm
  pts b hb := by
    show (if b < G₁.nb then _ else _ : List _).Perm ((G₁.pts (some b)).map id)
    rw [if_pos hb, List.map_id]
    exact .refl _
  rods b hb := by
    show (if b < G₁.nb then _ else _ : List _).Perm ((G₁.rods (some b)).map id)
    rw [if_pos hb, List.map_id]
    exact .refl _
  groundPts a ha := List.mem_append_left _ ha
  groundRods a ha := List.mem_append_left _ ha
  ptsBack i hi b rel ha := by
    cases b with
    | none =>
      refine ⟨none, rfl, ?_⟩
      rcases List.mem_append.1 ha with ha | ha
      · exact ha
      · obtain ⟨c, -, e⟩ := mem_later ha
        have : i = G₁.np + c.1 := congrArg Prod.fst e
        omega
    | some b =>
      refine ⟨some b, rfl, ?_⟩
      have ha' : (i, rel) ∈ if b < G₁.nb then G₁.pts (some b) else later G₁.np (G₂.pts (some (b - G₁.nb))) := ha
      split at ha'
      · exact ha'
      · obtain ⟨c, -, e⟩ := mem_later ha'
        have : i = G₁.np + c.1 := congrArg Prod.fst e
        omega
  rodsBack i hi b rel ha := by
    cases b with
    | none =>
      refine ⟨none, rfl, ?_⟩
      rcases List.mem_append.1 ha with ha | ha
      · exact ha
      · obtain ⟨c, -, e⟩ := mem_later ha
        have : i = G₁.nr + c.1 := congrArg Prod.fst e
        omega
    | some b =>
      refine ⟨some b, rfl, ?_⟩
      have ha' : (i, rel) ∈ if b < G₁.nb then G₁.rods (some b) else later G₁.nr (G₂.rods (some (b - G₁.nb))) := ha
      split at ha'
      · exact ha'
      · obtain ⟨c, -, e⟩ := mem_later ha'
        have : i = G₁.nr + c.1 := congrArg Prod.fst e
        omega
  ends i hi := by
    show (if i < G₁.np then _ else _ : List _).Perm _
    rw [if_pos hi, sameNames_end, List.map_id]
    exact .refl _
  endsA i hi := by
    show (if i < G₁.nr then _ else _ : List _).Perm _
    rw [if_pos hi, sameNames_end, List.map_id]
    exact .refl _
  endsB i hi := by
    show (if i < G₁.nr then _ else _ : List _).Perm _
    rw [if_pos hi, sameNames_end, List.map_id]
    exact .refl _
  held := h.held
  q0 i hi := (if_pos hi).symm
  line i hi := (if_pos hi).symm
  point i hi := (if_pos hi).symm
  rod i hi := (if_pos hi).symm
  body i hi := (if_pos hi).symm
  env := rfl
  kin := rfl
  half := rfl

theorem beside_pts (h₁ : G₁.Rightly) (b : Option ℕ) (a : ℕ × V) (ha : a ∈ (G₁.beside G₂).pts b) :
    (a ∈ G₁.pts b) ∨ ∃ b' c, b = b'.map (G₁.nb + ·) ∧ c ∈ G₂.pts b' ∧ a = (G₁.np + c.1, c.2) := by
  cases b with
  | none =>
    rcases List.mem_append.1 ha with ha | ha
    · exact .inl ha
    · obtain ⟨c, hc, e⟩ := mem_later ha
      exact .inr ⟨none, c, rfl, hc, e⟩
  | some b =>
    have ha' : a ∈ if b < G₁.nb then G₁.pts (some b) else later G₁.np (G₂.pts (some (b - G₁.nb))) := ha
    split at ha'
    · exact .inl ha'
    · obtain ⟨c, hc, e⟩ := mem_later ha'
      exact .inr ⟨some (b - G₁.nb), c, by simp; omega, hc, e⟩

theorem beside_rods (h₁ : G₁.Rightly) (b : Option ℕ) (a : ℕ × V × V) (ha : a ∈ (G₁.beside G₂).rods b) :
    (a ∈ G₁.rods b) ∨ ∃ b' c, b = b'.map (G₁.nb + ·) ∧ c ∈ G₂.rods b' ∧ a = (G₁.nr + c.1, c.2) := by
  cases b with
  | none =>
    rcases List.mem_append.1 ha with ha | ha
    · exact .inl ha
    · obtain ⟨c, hc, e⟩ := mem_later ha
      exact .inr ⟨none, c, rfl, hc, e⟩
  | some b =>
    have ha' : a ∈ if b < G₁.nb then G₁.rods (some b) else later G₁.nr (G₂.rods (some (b - G₁.nb))) := ha
    split at ha'
    · exact .inl ha'
    · obtain ⟨c, hc, e⟩ := mem_later ha'
      exact .inr ⟨some (b - G₁.nb), c, by simp; omega, hc, e⟩

theorem beside_holder (hd : Holder) (a : ℕ × EndPt) (ha : a ∈ hd.list (G₁.beside G₂).code) :
    (hd.There G₁.code ∧ a ∈ hd.list G₁.code) ∨ ∃ hd' c, c ∈ Holder.list G₂.code hd' ∧ a = (G₁.nl + c.1, c.2) ∧
      hd = match hd' with | .point i => .point (G₁.np + i) | .rodA i => .rodA (G₁.nr + i) | .rodB i => .rodB (G₁.nr + i) := by
  cases hd with
  | point i =>
    have ha' : a ∈ if i < G₁.np then G₁.ends i else later G₁.nl (G₂.ends (i - G₁.np)) := ha
    split at ha'
    · exact .inl ⟨‹_›, ha'⟩
    · obtain ⟨c, hc, e⟩ := mem_later ha'
      exact .inr ⟨.point (i - G₁.np), c, hc, e, by simp; omega⟩
  | rodA i =>
    have ha' : a ∈ if i < G₁.nr then G₁.endsA i else later G₁.nl (G₂.endsA (i - G₁.nr)) := ha
    split at ha'
    · exact .inl ⟨‹_›, ha'⟩
    · obtain ⟨c, hc, e⟩ := mem_later ha'
      exact .inr ⟨.rodA (i - G₁.nr), c, hc, e, by simp; omega⟩
  | rodB i =>
    have ha' : a ∈ if i < G₁.nr then G₁.endsB i else later G₁.nl (G₂.endsB (i - G₁.nr)) := ha
    split at ha'
    · exact .inl ⟨‹_›, ha'⟩
    · obtain ⟨c, hc, e⟩ := mem_later ha'
      exact .inr ⟨.rodB (i - G₁.nr), c, hc, e, by simp; omega⟩

/-- Two systems that are put together rightly are so in one file. -/
theorem Gear.Rightly.beside (h₁ : G₁.Rightly) (h₂ : G₂.Rightly) : (G₁.beside G₂).Rightly := by
  refine ⟨⟨?_, ?_, ?_, ?_, ?_, ?_, ?_, ?_, ?_⟩, ?_, ?_, ?_⟩
  · intro a b x ha hb
    rcases beside_holder a x ha with ⟨ta, ha⟩ | ⟨a', c, hc, rfl, rfl⟩ <;> rcases beside_holder b _ hb with ⟨tb, hb⟩ | ⟨b', c', hc', e, rfl⟩
    · exact h₁.sound.once _ _ _ ha hb
    · have := h₁.endsNum _ _ ha
      rw [e] at this
      simp at this
    · have := h₁.endsNum _ _ hb
      simp at this
    · have e1 := congrArg Prod.fst e
      have e2 := congrArg Prod.snd e
      have : c = c' := Prod.ext (by simpa using e1) e2
      subst this
      rw [h₂.sound.once _ _ _ hc hc']
  · intro k
    show 0 < (if k < G₁.nl then _ else _ : Mooring.Line).N
    split
    · exact h₁.sound.lineN k
    · exact h₂.sound.lineN _
  · intro b b' a ha a' ha' e
    rcases beside_pts h₁ b a ha with ha | ⟨c, x, rfl, hx, rfl⟩ <;> rcases beside_pts h₁ b' a' ha' with ha' | ⟨c', x', rfl, hx', rfl⟩
    · exact h₁.sound.pts _ _ _ ha _ ha' e
    · have := h₁.sound.ptsNum _ _ ha
      rw [e] at this
      exact absurd this (by show ¬ _ < G₁.np; simp)
    · have := h₁.sound.ptsNum _ _ ha'
      rw [← e] at this
      exact absurd this (by show ¬ _ < G₁.np; simp)
    · obtain ⟨h3, h4⟩ := h₂.sound.pts _ _ _ hx _ hx' (by simpa using e)
      exact ⟨by rw [h3], by rw [h4]⟩
  · intro b b' a ha a' ha' e
    rcases beside_rods h₁ b a ha with ha | ⟨c, x, rfl, hx, rfl⟩ <;> rcases beside_rods h₁ b' a' ha' with ha' | ⟨c', x', rfl, hx', rfl⟩
    · exact h₁.sound.rods _ _ _ ha _ ha' e
    · have := h₁.sound.rodsNum _ _ ha
      rw [e] at this
      exact absurd this (by show ¬ _ < G₁.nr; simp)
    · have := h₁.sound.rodsNum _ _ ha'
      rw [← e] at this
      exact absurd this (by show ¬ _ < G₁.nr; simp)
    · obtain ⟨h3, h4⟩ := h₂.sound.rods _ _ _ hx _ hx' (by simpa using e)
      exact ⟨by rw [h3], by rw [h4]⟩
  · intro b a ha
    show (if a.1 < G₁.np then _ else _ : Kind) = _
    rcases beside_pts h₁ b a ha with ha | ⟨c, x, rfl, hx, rfl⟩
    · rw [if_pos (show a.1 < G₁.np from h₁.sound.ptsNum _ _ ha)]
      exact h₁.sound.ptsKind _ _ ha
    · rw [if_neg (by simp)]
      have := h₂.sound.ptsKind _ _ hx
      simp only [Nat.add_sub_cancel_left]
      exact this
  · intro b a ha
    show (if a.1 < G₁.nr then _ else _ : RKind) = _ ∨ (if a.1 < G₁.nr then _ else _ : RKind) = _
    rcases beside_rods h₁ b a ha with ha | ⟨c, x, rfl, hx, rfl⟩
    · rw [if_pos (show a.1 < G₁.nr from h₁.sound.rodsNum _ _ ha)]
      exact h₁.sound.rodsKind _ _ ha
    · rw [if_neg (by simp)]
      have := h₂.sound.rodsKind _ _ hx
      simp only [Nat.add_sub_cancel_left]
      exact this
  · intro b a ha
    show a.1 < G₁.nr + G₂.nr
    rcases beside_rods h₁ b a ha with ha | ⟨c, x, rfl, hx, rfl⟩
    · exact Nat.lt_add_right _ (h₁.sound.rodsNum _ _ ha)
    · have : x.1 < G₂.nr := h₂.sound.rodsNum _ _ hx
      simpa using this
  · intro b a ha
    show a.1 < G₁.np + G₂.np
    rcases beside_pts h₁ b a ha with ha | ⟨c, x, rfl, hx, rfl⟩
    · exact Nat.lt_add_right _ (h₁.sound.ptsNum _ _ ha)
    · have : x.1 < G₂.np := h₂.sound.ptsNum _ _ hx
      simpa using this
  · intro b hb
    show b < G₁.nb + G₂.nb
    rcases hb with ⟨a, ha⟩ | ⟨a, ha⟩
    · rcases beside_pts h₁ (some b) a ha with ha | ⟨c, x, e, hx, rfl⟩
      · exact Nat.lt_add_right _ (h₁.sound.bodyNum b (.inl ⟨a, ha⟩))
      · cases c with
        | none => cases e
        | some c =>
          have : c < G₂.nb := h₂.sound.bodyNum c (.inl ⟨x, hx⟩)
          have e' : b = G₁.nb + c := by simpa using e
          omega
    · rcases beside_rods h₁ (some b) a ha with ha | ⟨c, x, e, hx, rfl⟩
      · exact Nat.lt_add_right _ (h₁.sound.bodyNum b (.inr ⟨a, ha⟩))
      · cases c with
        | none => cases e
        | some c =>
          have : c < G₂.nb := h₂.sound.bodyNum c (.inr ⟨x, hx⟩)
          have e' : b = G₁.nb + c := by simpa using e
          omega
  · intro i hi
    have hi' : i < G₁.nr + G₂.nr := hi
    show 0 < (if i < G₁.nr then _ else _ : Rods.Rod).N
    split
    · exact h₁.long i ‹_›
    · exact h₂.long _ (by omega)
  · intro k hk p
    have hk' : k < G₁.nl + G₂.nl := hk
    by_cases hlt : k < G₁.nl
    · rcases h₁.held k hlt p with ⟨i, hi, ha⟩ | ⟨i, hi, ha⟩
      · refine .inl ⟨i, Nat.lt_add_right _ hi, ?_⟩
        show _ ∈ if i < G₁.np then _ else _
        rwa [if_pos hi]
      · refine .inr ⟨i, Nat.lt_add_right _ hi, ?_⟩
        show (_ ∈ if i < G₁.nr then _ else _) ∨ (_ ∈ if i < G₁.nr then _ else _)
        rwa [if_pos hi, if_pos hi]
    · have e : (k, p) = (G₁.nl + (k - G₁.nl), p) := by
        rw [Nat.add_sub_cancel' (by omega)]
      rcases h₂.held (k - G₁.nl) (by omega) p with ⟨i, hi, ha⟩ | ⟨i, hi, ha⟩
      · refine .inl ⟨G₁.np + i, by show _ < G₁.np + G₂.np; omega, ?_⟩
        show _ ∈ if G₁.np + i < G₁.np then _ else _
        rw [if_neg (by omega), Nat.add_sub_cancel_left, e]
        exact List.mem_map.2 ⟨_, ha, rfl⟩
      · refine .inr ⟨G₁.nr + i, by show _ < G₁.nr + G₂.nr; omega, ?_⟩
        show (_ ∈ if G₁.nr + i < G₁.nr then _ else _) ∨ (_ ∈ if G₁.nr + i < G₁.nr then _ else _)
        rw [if_neg (by omega), if_neg (by omega), Nat.add_sub_cancel_left, e]
        rcases ha with ha | ha
        · exact .inl (List.mem_map.2 ⟨_, ha, rfl⟩)
        · exact .inr (List.mem_map.2 ⟨_, ha, rfl⟩)
  · intro hd a ha
    show a.1 < G₁.nl + G₂.nl
    rcases beside_holder hd a ha with ⟨-, ha⟩ | ⟨hd', c, hc, rfl, -⟩
    · exact Nat.lt_add_right _ (h₁.endsNum _ _ ha)
    · have : c.1 < G₂.nl := h₂.endsNum _ _ hc
      simpa using this

/-- **C106**, two systems in one file: whatever the second is and however it moves, the first does what it does alone.  (The scheme is any but
`anderson`, which decides by the whole system when to stop.) -/
theorem C106_beside_partial (h₁ : G₁.Rightly) (h₂ : G₂.Rightly) (E : Each (Quat ℝ))
    (conv conv' : State (Quat ℝ) × State (Quat ℝ) → State (Quat ℝ) × State (Quat ℝ) → Bool) (fr : Fresh)
    (sc : Time.Scheme ℝ) (hsc : Relate.NotAnderson sc) (dtM0 : ℝ) (fuel : ℕ) (calls : List Asked)
    (s e : Time.Sim ℝ (State (Quat ℝ)) Objects) (hm : Connected (G₁.beside G₂).code s.m)
    (he : calls.foldlM (call (G₁.beside G₂).code (E.aux conv fr) sc dtM0 fuel) s = some e) :
    ∃ e', calls.foldlM (call G₁.code (E.aux conv' fr) sc dtM0 fuel) s = some e' ∧ e'.t = e.t ∧
      (∀ b < G₁.nb, e'.m.body b = e.m.body b) ∧ (∀ i < G₁.nr, e'.m.rod i = e.m.rod i) ∧
      (∀ i < G₁.np, e'.m.point i = e.m.point i) ∧ ∀ k < G₁.nl, e'.m.line k = e.m.line k := by
  obtain ⟨e', h, hs⟩ := C106_gear_partial (β := sameNames) (beside_part h₁) (h₁.beside h₂) h₁ E conv conv' (fr := fr) (fr' := fr)
    ⟨fun _ _ => rfl, fun _ _ => rfl, fun _ _ => rfl, fun _ _ => rfl⟩ sc hsc dtM0 fuel calls calls
    (List.forall₂_same.2 fun x _ => ⟨rfl, fun _ _ => rfl, fun _ _ => rfl, fun _ _ => rfl⟩) s s e
    ⟨rfl, rfl, rfl, ⟨fun _ _ => rfl, fun _ _ => rfl, fun _ _ => rfl, fun _ _ => rfl⟩,
      fun _ => ⟨fun _ _ => rfl, fun _ _ => rfl, fun _ _ => rfl, fun _ _ => rfl⟩,
      ⟨rfl, rfl, fun _ _ => rfl, fun _ _ => rfl, fun _ _ => rfl, fun _ _ => rfl⟩⟩ hm he
  exact ⟨e', h, hs.t, hs.m.body, hs.m.rod, hs.m.point, hs.m.line⟩

/-! ## The buoy -/

theorem buoy_rightly : buoy.Rightly := by
  have hb : ∀ b (a : ℕ × V), a ∈ buoy.pts b → b = none ∧ a = (0, ![90, 0, -50]) := by
    intro b a ha
    rcases b with _ | b
    · exact ⟨rfl, List.mem_singleton.1 ha⟩
    · cases ha
  have hr : ∀ b (a : ℕ × V × V), a ∈ buoy.rods b → b = some 0 ∧ a = (0, 0, ![0, 0, 1]) := by
    intro b a ha
    rcases b with _ | _ | b
    · cases ha
    · exact ⟨rfl, List.mem_singleton.1 ha⟩
    · cases ha
  have hh : ∀ (h : Holder) (a : ℕ × EndPt), a ∈ h.list buoy.code → (h = .point 0 ∧ a = (0, .BOTTOM)) ∨ (h = .point 1 ∧ a = (1, .BOTTOM)) ∨
      (h = .rodA 0 ∧ a = (1, .TOP)) ∨ (h = .rodB 0 ∧ a = (0, .TOP)) := by
    intro h a ha
    rcases h with (_ | _ | i) | (_ | i) | (_ | i)
    · exact .inl ⟨rfl, List.mem_singleton.1 ha⟩
    · exact .inr (.inl ⟨rfl, List.mem_singleton.1 ha⟩)
    · cases ha
    · exact .inr (.inr (.inl ⟨rfl, List.mem_singleton.1 ha⟩))
    · cases ha
    · exact .inr (.inr (.inr ⟨rfl, List.mem_singleton.1 ha⟩))
    · cases ha
  refine ⟨⟨?_, ?_, ?_, ?_, ?_, ?_, ?_, ?_, ?_⟩, ?_, ?_, ?_⟩
  · intro h h' a ha ha'
    rcases hh h a ha with ⟨rfl, rfl⟩ | ⟨rfl, rfl⟩ | ⟨rfl, rfl⟩ | ⟨rfl, rfl⟩ <;> rcases hh h' _ ha' with ⟨rfl, e⟩ | ⟨rfl, e⟩ | ⟨rfl, e⟩ | ⟨rfl, e⟩ <;>
      first | rfl | simp at e
  · intro k
    show 0 < 3
    norm_num
  · intro b b' a ha a' ha' _
    obtain ⟨rfl, rfl⟩ := hb b a ha
    obtain ⟨rfl, rfl⟩ := hb b' a' ha'
    exact ⟨rfl, rfl⟩
  · intro b b' a ha a' ha' _
    obtain ⟨rfl, rfl⟩ := hr b a ha
    obtain ⟨rfl, rfl⟩ := hr b' a' ha'
    exact ⟨rfl, rfl⟩
  · intro b a ha
    obtain ⟨rfl, rfl⟩ := hb b a ha
    rfl
  · intro b a ha
    exact .inr rfl
  · intro b a ha
    obtain ⟨rfl, rfl⟩ := hr b a ha
    show 0 < 1
    norm_num
  · intro b a ha
    obtain ⟨rfl, rfl⟩ := hb b a ha
    show 0 < 2
    norm_num
  · rintro b (⟨a, ha⟩ | ⟨a, ha⟩)
    · exact absurd (hb (some b) a ha).1 (Option.some_ne_none b)
    · have := (hr (some b) a ha).1
      cases this
      show 0 < 1
      norm_num
  · intro i _
    show 0 < 2
    norm_num
  · intro k hk p
    have hk' : k = 0 ∨ k = 1 := by
      have : k < 2 := hk
      omega
    rcases hk' with rfl | rfl <;> cases p
    · exact .inr ⟨0, by show 0 < 1; norm_num, .inr (List.mem_singleton.2 rfl)⟩
    · exact .inl ⟨0, by show 0 < 2; norm_num, List.mem_singleton.2 rfl⟩
    · exact .inr ⟨0, by show 0 < 1; norm_num, .inl (List.mem_singleton.2 rfl)⟩
    · exact .inl ⟨1, by show 1 < 2; norm_num, List.mem_singleton.2 rfl⟩
  · intro h a ha
    show a.1 < 2
    rcases hh h a ha with ⟨rfl, rfl⟩ | ⟨rfl, rfl⟩ | ⟨rfl, rfl⟩ | ⟨rfl, rfl⟩ <;> norm_num

/-- Two buoys in one file are put together rightly. -/
example : (buoy.beside buoy).Rightly := buoy_rightly.beside buoy_rightly

/-- Lines 0 and 1, and points 0 and 1, with their numbers exchanged. -/
def exchanged : Order := ⟨Equiv.refl _, Equiv.refl _, Equiv.swap 0 1, Equiv.swap 0 1⟩

theorem exchanged_of : exchanged.Of buoy := by
  have : ∀ k, Equiv.swap 0 1 k < 2 ↔ k < 2 := by
    intro k
    rcases k with _ | _ | k
    · simp
    · simp
    · rw [Equiv.swap_apply_of_ne_of_ne (by omega) (by omega)]
  exact ⟨fun _ => Iff.rfl, fun _ => Iff.rfl, this, this⟩

example : Reordered exchanged (buoy.renumbered exchanged).code buoy.code ∧ (buoy.renumbered exchanged).Rightly ∧
    (buoy.renumbered exchanged).ends 0 = [(0, .BOTTOM)] ∧ (buoy.renumbered exchanged).endsA 0 = [(0, .TOP)] :=
  ⟨Gear.renumbered_code exchanged_of buoy_rightly, buoy_rightly.renumbered exchanged_of, by decide, by decide⟩

end MD.Whole
