import Verif.Model.Registry
import Mathlib.Data.List.Nodup
import Mathlib.Data.List.InsertIdx
import Mathlib.Tactic.Linarith

/-!
# Property C18: registering and removing objects
-/

set_option linter.unusedSimpArgs false
set_option linter.unusedVariables false

namespace MD.Registry

variable {O S : Type} [DecidableEq O]

/-! ## Specification -/

/-- No object twice, and in each stage one state per object, one mask entry per
object. -/
def Ok (g : Reg O S) : Prop :=
  g.objs.Nodup ∧ (∀ l ∈ g.r, l.length = g.objs.length) ∧
    (∀ l ∈ g.rd, l.length = g.objs.length) ∧ g.mask.length = g.objs.length

/-- The state of object `o` in stage `k`, if there is one. -/
def stateOf (g : Reg O S) (k : ℕ) (o : O) : Option S :=
  if o ∈ g.objs then (g.r[k]?).bind (fun l => l[g.objs.idxOf o]?) else none

/-! ## Add -/

/-- C18, add: a registered object is rejected, a new one is accepted with the given
initial state; the states of the others are unchanged. -/
theorem C18_add (g : Reg O S) (o : O) (z dz : S) (hg : Ok g) :
    (g.add o z dz = none ↔ o ∈ g.objs) ∧
    ∀ g', g.add o z dz = some g' → Ok g' ∧ g'.r.length = g.r.length ∧ g'.rd.length = g.rd.length ∧
      o ∈ g'.objs ∧ (∀ k < g.r.length, stateOf g' k o = some z) ∧
      (∀ p ∈ g.objs, p ∈ g'.objs ∧ ∀ k, stateOf g' k p = stateOf g k p) ∧
      (∀ p ∈ g'.objs, p = o ∨ p ∈ g.objs) := by
  obtain ⟨h1, h2, h3, h4⟩ := hg
  unfold Reg.add
  by_cases ho : o ∈ g.objs
  · simp [ho]
  · rw [if_neg ho]
    refine ⟨by simp [ho], ?_⟩
    intro g' h
    simp only [Option.some.injEq] at h
    subst h
    refine ⟨⟨?_, ?_, ?_, ?_⟩, by simp, by simp, by simp, ?_, ?_, ?_⟩
    · rw [List.nodup_append]
      refine ⟨h1, by simp, ?_⟩
      intro a ha b hb
      simp only [List.mem_singleton] at hb
      subst hb
      rintro rfl
      exact ho ha
    · intro l hl
      simp only [List.mem_map] at hl
      obtain ⟨l', hl', rfl⟩ := hl
      simp [h2 l' hl']
    · intro l hl
      simp only [List.mem_map] at hl
      obtain ⟨l', hl', rfl⟩ := hl
      simp [h3 l' hl']
    · simp [h4]
    · intro k hk
      have hlen := h2 (g.r[k]) (List.getElem_mem hk)
      simp only [stateOf, List.mem_append, List.mem_singleton, or_true, if_true]
      rw [List.getElem?_map, List.getElem?_eq_getElem hk]
      simp only [Option.map_some, Option.bind_some]
      rw [List.idxOf_append_of_notMem ho]
      simp [← hlen]
    · intro p hp
      refine ⟨by simp [hp], ?_⟩
      intro k
      simp only [stateOf, List.mem_append, hp, true_or, if_true]
      rw [List.getElem?_map, List.idxOf_append_of_mem hp]
      cases hk : g.r[k]? with
      | none => simp
      | some l =>
        simp only [Option.map_some, Option.bind_some]
        have hl := h2 l (List.mem_of_getElem? hk)
        have : g.objs.idxOf p < l.length := by rw [hl]; exact List.idxOf_lt_length_of_mem hp
        rw [List.getElem?_append_left this]
    · intro p hp
      simp only [List.mem_append, List.mem_singleton] at hp
      tauto

/-- C18, any number of registrations: if all succeed, each object has one state per
stage, in registration order; if some object is repeated, there is an error. -/
theorem C18_add_all (g : Reg O S) (os : List O) (z dz : S) (hg : Ok g) :
    (∀ g', os.foldlM (fun g o => Reg.add g o z dz) g = some g' →
      Ok g' ∧ g'.objs = g.objs ++ os ∧ g'.r.length = g.r.length) ∧
    (os.foldlM (fun g o => Reg.add g o z dz) g = none ↔ ¬ (g.objs ++ os).Nodup) := by
  induction os generalizing g with
  | nil =>
    refine ⟨?_, ?_⟩
    · intro g' h
      simp at h
      subst h
      exact ⟨hg, by simp, rfl⟩
    · simp [hg.1]
  | cons o os ih =>
    obtain ⟨a1, a2⟩ := C18_add g o z dz hg
    simp only [List.foldlM_cons, Option.bind_eq_bind]
    cases ha : g.add o z dz with
    | none =>
      simp only [Option.bind_none]
      refine ⟨by simp, ?_⟩
      have hm := a1.mp ha
      simp only [true_iff]
      intro hn
      rw [List.nodup_append] at hn
      exact hn.2.2 o hm o (by simp) rfl
    | some g1 =>
      simp only [Option.bind_some]
      obtain ⟨b1, b2, -⟩ := a2 g1 ha
      have hobjs : g1.objs = g.objs ++ [o] := by
        unfold Reg.add at ha
        split at ha
        · cases ha
        · simp only [Option.some.injEq] at ha; rw [← ha]
      obtain ⟨c1, c2⟩ := ih g1 b1
      rw [hobjs] at c1 c2
      refine ⟨?_, ?_⟩
      · intro g' h
        obtain ⟨d1, d2, d3⟩ := c1 g' h
        exact ⟨d1, by rw [d2]; simp, by rw [d3, b2]⟩
      · rw [c2]; simp

/-- C18: after any sequence of registrations and removals, starting without objects, the right hand
side of every object is computed in every evaluation (outside of the local time stepping, which
sets the mask itself). -/
theorem C18_all_computed (ops : List (Bool × O × S × S)) (g g' : Reg O S)
    (h0 : ∀ b ∈ g.mask, b = true)
    (h : ops.foldlM (fun g op => if op.1 then Reg.add g op.2.1 op.2.2.1 op.2.2.2
      else match Reg.remove g op.2.1 with
        | .ok x => some x.1
        | _ => none) g = some g') : ∀ b ∈ g'.mask, b = true := by
  induction ops generalizing g with
  | nil =>
    simp at h
    subst h
    exact h0
  | cons op ops ih =>
    simp only [List.foldlM_cons, Option.bind_eq_bind, Option.bind_eq_some_iff] at h
    obtain ⟨g1, h1, h2⟩ := h
    refine ih g1 ?_ h2
    by_cases hop : op.1
    · rw [if_pos hop] at h1
      unfold Reg.add at h1
      split at h1
      · cases h1
      · simp only [Option.some.injEq] at h1
        subst h1
        intro b hb
        simp only [List.mem_append, List.mem_singleton] at hb
        rcases hb with hb | hb
        · exact h0 b hb
        · exact hb
    · rw [if_neg hop] at h1
      cases hr : g.remove op.2.1 with
      | error => rw [hr] at h1; cases h1
      | undefined => rw [hr] at h1; cases h1
      | ok x =>
        rw [hr] at h1
        simp only [Option.some.injEq] at h1
        subst h1
        unfold Reg.remove at hr
        split at hr
        · simp only at hr
          split at hr
          · rename_i r rd mask _ _ hm
            cases hr
            unfold erase? at hm
            split at hm
            · simp only [Option.some.injEq] at hm
              subst hm
              intro b hb
              exact h0 b (List.mem_of_mem_eraseIdx hb)
            · cases hm
          · cases hr
        · cases hr

example : ∃ g', [(true, 1, 0, 0), (true, 2, 0, 0), (false, 1, 0, 0)].foldlM
    (fun (g : Reg ℕ ℕ) op => if op.1 then Reg.add g op.2.1 op.2.2.1 op.2.2.2
      else match Reg.remove g op.2.1 with
        | .ok x => some x.1
        | _ => none) ⟨[], [[]], [[]], []⟩ = some g' ∧ g'.mask = [true] :=
  ⟨⟨[2], [[0]], [[0]], [true]⟩, by decide, rfl⟩

/-! ## Remove -/

/-- What removing should do: exactly object `o` and its states disappear. -/
def RemoveSpec (g g' : Reg O S) (o : O) : Prop :=
  Ok g' ∧ g'.objs = g.objs.erase o ∧ ∀ p, p ≠ o → ∀ k, stateOf g' k p = stateOf g k p

theorem eraseStages_spec (i : ℕ) (ls ls' : List (List S)) (h : eraseStages i ls = some ls') :
    ls'.length = ls.length ∧ ∀ (k : ℕ) (l : List S), ls[k]? = some l →
      i + k < l.length ∧ ls'[k]? = some (l.eraseIdx (i + k)) := by
  induction ls generalizing i ls' with
  | nil => simp [eraseStages] at h; subst h; simp
  | cons l ls ih =>
    simp only [eraseStages, erase?, Option.bind_eq_bind, Option.bind_eq_some_iff, Option.pure_def,
      Option.some.injEq] at h
    obtain ⟨l1, h1, ls1, h2, h3⟩ := h
    obtain ⟨i1, i2⟩ := ih (i + 1) ls1 h2
    split at h1
    · rename_i hlt
      simp only [Option.some.injEq] at h1
      subst h1 h3
      refine ⟨by simp [i1], ?_⟩
      intro k m hk
      cases k with
      | zero => simp at hk; subst hk; exact ⟨by omega, by simp⟩
      | succ k =>
        simp only [List.getElem?_cons_succ] at hk ⊢
        have := i2 k m hk
        rw [show i + (k + 1) = i + 1 + k by omega]
        exact this
    · cases h1

theorem eraseStages_none (i : ℕ) (ls : List (List S)) (h : eraseStages i ls = none) :
    ∃ (k : ℕ) (l : List S), ls[k]? = some l ∧ l.length ≤ i + k := by
  induction ls generalizing i with
  | nil => simp [eraseStages] at h
  | cons l ls ih =>
    by_cases hlt : i < l.length
    · have : eraseStages (i + 1) ls = none := by
        by_contra hne
        obtain ⟨m, hm⟩ := Option.ne_none_iff_exists'.mp hne
        simp [eraseStages, erase?, hlt, hm] at h
      obtain ⟨k, m, h1, h2⟩ := ih (i + 1) this
      exact ⟨k + 1, m, by simpa using h1, by omega⟩
    · exact ⟨0, l, by simp, by omega⟩

/-- C18, unknown objects are rejected by remove. -/
theorem C18_remove_unknown (g : Reg O S) (o : O) : g.remove o = .error ↔ o ∉ g.objs := by
  unfold Reg.remove
  split
  · rename_i h
    simp only [h, not_true_eq_false, iff_false]
    split <;> simp
  · rename_i h; simp [h]

/-- C18, remove, partial: with one state per stage list (single-stage schemes) and the
first registered object, exactly that object disappears.  Missing: other objects
and stages, where it is false, see `C18_remove_wrong_false` and
`C18_remove_undefined_false`. -/
theorem C18_remove_first_partial (g : Reg O S) (o : O) (os : List O) (ho : g.objs = o :: os)
    (hg : Ok g) (hr : g.r.length = 1) (hrd : g.rd.length = 1) :
    ∃ g', g.remove o = .ok (g', 0) ∧ RemoveSpec g g' o := by
  obtain ⟨h1, h2, h3, h4⟩ := hg
  obtain ⟨a, ha⟩ := List.length_eq_one_iff.mp hr
  obtain ⟨b, hb⟩ := List.length_eq_one_iff.mp hrd
  have la := h2 a (by rw [ha]; simp)
  have lb := h3 b (by rw [hb]; simp)
  rw [ho] at la lb h4
  have pa : 0 < a.length := by rw [la]; simp
  have pb : 0 < b.length := by rw [lb]; simp
  have pm : 0 < g.mask.length := by rw [h4]; simp
  refine ⟨⟨os, [a.eraseIdx 0], [b.eraseIdx 0], g.mask.eraseIdx 0⟩, ?_, ?_⟩
  · unfold Reg.remove
    rw [ho, ha, hb]
    simp [eraseStages, erase?, pa, pb, pm]
  · rw [ho] at h1
    have hno : o ∉ os := (List.nodup_cons.mp h1).1
    refine ⟨⟨(List.nodup_cons.mp h1).2, ?_, ?_, ?_⟩, ?_, ?_⟩
    · intro l hl
      simp only [List.mem_singleton] at hl
      subst hl
      rw [List.length_eraseIdx]; simp [pa, la]
    · intro l hl
      simp only [List.mem_singleton] at hl
      subst hl
      rw [List.length_eraseIdx]; simp [pb, lb]
    · simp only; rw [List.length_eraseIdx]; simp [pm, h4]
    · rw [ho]; simp
    · intro p hp k
      unfold stateOf
      rw [ho, ha]
      simp only [List.mem_cons, hp, false_or]
      by_cases hm : p ∈ os
      · rw [if_pos hm, if_pos hm]
        rw [List.idxOf_cons_ne _ (Ne.symm hp)]
        cases k with
        | zero =>
          simp only [List.getElem?_cons_zero, Option.bind_some]
          cases a with
          | nil => simp at pa
          | cons x a => simp
        | succ k => simp
      · rw [if_neg hm, if_neg hm]

/-- C18, remove, what is always true: if it ends normally, the object is removed from the
list and every stage has one state per object, but in stage `k` it is the `k`-th state
that was dropped. -/
theorem C18_remove_actual (g g' : Reg O S) (o : O) (i : ℕ) (hg : Ok g)
    (h : g.remove o = .ok (g', i)) :
    Ok g' ∧ g'.objs = g.objs.erase o ∧ g.objs[i]? = some o ∧ g'.r.length = g.r.length ∧
      ∀ (k : ℕ) (l : List S), g.r[k]? = some l → g'.r[k]? = some (l.eraseIdx k) := by
  obtain ⟨h1, h2, h3, h4⟩ := hg
  unfold Reg.remove at h
  split at h
  swap; · cases h
  rename_i hm
  simp only at h
  split at h
  swap; · cases h
  rename_i r rd mask er erd em
  simp only [Res.ok.injEq, Prod.mk.injEq] at h
  obtain ⟨hg', hi⟩ := h
  subst hg'
  obtain ⟨l1, s1⟩ := eraseStages_spec 0 _ _ er
  obtain ⟨l2, s2⟩ := eraseStages_spec 0 _ _ erd
  have hlt := List.idxOf_lt_length_of_mem hm
  have hlen : (g.objs.eraseIdx (g.objs.idxOf o)).length = g.objs.length - 1 := by
    rw [List.length_eraseIdx]; simp [hlt]
  refine ⟨⟨?_, ?_, ?_, ?_⟩, ?_, ?_, l1, ?_⟩
  · exact List.Nodup.sublist (List.eraseIdx_sublist _ _) h1
  · intro l hl
    obtain ⟨k, hk⟩ := List.mem_iff_getElem?.mp hl
    have hk' : k < g.r.length := by
      have := (List.getElem?_eq_some_iff.mp hk).1
      rw [← l1]; exact this
    obtain ⟨q1, q2⟩ := s1 k _ (List.getElem?_eq_getElem hk')
    simp only at hk
    rw [hk] at q2
    simp only [Option.some.injEq] at q2
    rw [hlen, q2, List.length_eraseIdx, if_pos q1, h2 _ (List.getElem_mem hk')]
  · intro l hl
    obtain ⟨k, hk⟩ := List.mem_iff_getElem?.mp hl
    have hk' : k < g.rd.length := by
      have := (List.getElem?_eq_some_iff.mp hk).1
      rw [← l2]; exact this
    obtain ⟨q1, q2⟩ := s2 k _ (List.getElem?_eq_getElem hk')
    simp only at hk
    rw [hk] at q2
    simp only [Option.some.injEq] at q2
    rw [hlen, q2, List.length_eraseIdx, if_pos q1, h3 _ (List.getElem_mem hk')]
  · unfold erase? at em
    split at em
    · rename_i hh
      simp only [Option.some.injEq] at em
      simp only
      rw [← em, hlen, List.length_eraseIdx, if_pos hh, h4]
    · cases em
  · simp only
    rw [List.erase_eq_eraseIdx_of_idxOf (by rfl)]
  · rw [← hi]; exact List.getElem?_idxOf hm
  · intro k l hk
    have := (s1 k l hk).2
    rwa [Nat.zero_add] at this

/-- C18 is false: removing the second of two points in a single-stage scheme drops the
state of the first one. -/
theorem C18_remove_wrong_false :
    let g : Reg ℕ ℕ := ⟨[1, 2], [[10, 20]], [[0, 0]], [true, true]⟩
    Ok g ∧ ∃ g', g.remove 2 = .ok (g', 1) ∧ stateOf g 0 1 = some 10 ∧ stateOf g' 0 1 = some 20 := by
  refine ⟨⟨by decide, by decide, by decide, by decide⟩, ⟨[1], [[20]], [[0]], [true]⟩, by decide,
    by decide, by decide⟩

/-- C18 is false: with more stages than objects of the kind, removing one is an
access out of range (five derivatives in RK4-like schemes, one point). -/
theorem C18_remove_undefined_false (g : Reg O S) (o : O) (hg : Ok g) (ho : o ∈ g.objs)
    (hk : g.objs.length < g.r.length) : g.remove o = .undefined := by
  obtain ⟨h1, h2, h3, h4⟩ := hg
  have hn : eraseStages 0 g.r = none := by
    by_contra hne
    obtain ⟨m, hm⟩ := Option.ne_none_iff_exists'.mp hne
    obtain ⟨-, s⟩ := eraseStages_spec 0 _ _ hm
    obtain ⟨q, -⟩ := s _ _ (List.getElem?_eq_getElem hk)
    rw [h2 _ (List.getElem_mem hk)] at q
    omega
  unfold Reg.remove
  rw [if_pos ho, hn]

/-- C18, exactly when removal ends normally -/
theorem C18_remove_defined (g : Reg O S) (o : O) (hg : Ok g) (ho : o ∈ g.objs) :
    g.remove o = .undefined ↔ g.objs.length < g.r.length ∨ g.objs.length < g.rd.length := by
  obtain ⟨h1, h2, h3, h4⟩ := hg
  have aux : ∀ ls : List (List S), (∀ l ∈ ls, l.length = g.objs.length) →
      (eraseStages 0 ls = none ↔ g.objs.length < ls.length) := by
    intro ls hl
    constructor
    · intro h
      obtain ⟨k, l, hk, hle⟩ := eraseStages_none 0 ls h
      have := hl l (List.mem_of_getElem? hk)
      have := (List.getElem?_eq_some_iff.mp hk).1
      omega
    · intro hlt
      by_contra hne
      obtain ⟨m, hm⟩ := Option.ne_none_iff_exists'.mp hne
      obtain ⟨-, s⟩ := eraseStages_spec 0 _ _ hm
      obtain ⟨q, -⟩ := s _ _ (List.getElem?_eq_getElem hlt)
      rw [hl _ (List.getElem_mem hlt)] at q
      omega
  have a1 := aux g.r h2
  have a2 := aux g.rd h3
  have hm : erase? g.mask (g.objs.idxOf o) ≠ none := by
    unfold erase?
    rw [if_pos (by rw [h4]; exact List.idxOf_lt_length_of_mem ho)]
    simp
  unfold Reg.remove
  rw [if_pos ho, ← a1, ← a2]
  simp only
  cases e1 : eraseStages 0 g.r <;> cases e2 : eraseStages 0 g.rd <;>
    cases e3 : erase? g.mask (g.objs.idxOf o) <;> simp_all

/-- non-vacuity: an RK4-like scheme (5 states) with two objects -/
example : let g : Reg ℕ ℕ := ⟨[1, 2], List.replicate 5 [10, 20], List.replicate 4 [0, 0], [true, true]⟩
    Ok g ∧ g.remove 1 = .undefined ∧ (∃ g', g.add 3 0 0 = some g' ∧ stateOf g' 4 3 = some 0) := by
  refine ⟨⟨by decide, by decide, by decide, by decide⟩, by decide, _, rfl, by decide⟩

end MD.Registry
