import Verif.Model.Attach
import Mathlib.Data.List.Count
import Mathlib.Data.Rat.Defs
import Mathlib.Algebra.Order.Ring.Rat
import Mathlib.Data.Multiset.Count
import Mathlib.Tactic.NormNum

/-!
# Properties C16, C17 and C19: attachments and failures
-/

set_option linter.unusedSimpArgs false
set_option linter.unusedVariables false

namespace MD.Attach

variable {V : Type}

/-! ## Specification -/

/-- Line end `a` is attached to `x`, once, and to nothing else. -/
def AttachedTo (s : Sys V) (a : Att) (x : Support) : Prop :=
  (s.att x).count a = 1 ∧ ∀ y, y ≠ x → a ∉ s.att y

/-- Both ends of each line are attached to exactly one existing support, and nothing
else is attached anywhere. -/
def Consistent (s : Sys V) : Prop :=
  (∀ l < s.nl, ∀ e, ∃ x, s.valid x = true ∧ AttachedTo s (l, e) x) ∧
  (∀ x l e, (l, e) ∈ s.att x → l < s.nl ∧ s.valid x = true)

/-- the system before any line is read -/
def Sys.Fresh (s : Sys V) : Prop := s.nl = 0 ∧ ∀ x, s.att x = []

/-! ## Lemmas -/

theorem removeLine_spec (l : ℕ) (as : List Att) :
    (∀ e as', removeLine l as = some (e, as') →
      (l, e) ∈ as ∧ (∀ b, as.count b = as'.count b + if b = (l, e) then 1 else 0)) ∧
    (removeLine l as = none → ∀ e, (l, e) ∉ as) := by
  induction as with
  | nil => simp [removeLine]
  | cons a as ih =>
    constructor
    · intro e as' h
      unfold removeLine at h
      by_cases hl : a.1 = l
      · rw [if_pos hl] at h
        simp only [Option.some.injEq, Prod.mk.injEq] at h
        obtain ⟨h1, h2⟩ := h
        have ha : a = (l, e) := by rw [← hl, ← h1]
        subst h2
        refine ⟨by rw [ha]; simp, ?_⟩
        intro b
        rw [List.count_cons, ha]
        by_cases hb : b = (l, e)
        · simp [hb]
        · have : ((l, e) == b) = false := by simpa using fun h => hb h.symm
          simp [hb, this]
      · rw [if_neg hl] at h
        split at h
        · cases h
        · rename_i e2 as2 h2
          simp only [Option.some.injEq, Prod.mk.injEq] at h
          obtain ⟨h3, h4⟩ := h
          subst h3 h4
          obtain ⟨i1, i2⟩ := ih.1 _ _ h2
          refine ⟨by simp [i1], ?_⟩
          intro b
          rw [List.count_cons, List.count_cons, i2 b]
          omega
    · intro h e he
      unfold removeLine at h
      by_cases hl : a.1 = l
      · rw [if_pos hl] at h; cases h
      · rw [if_neg hl] at h
        split at h
        · rename_i h2
          rcases List.mem_cons.mp he with h3 | h3
          · rw [← h3] at hl; exact hl rfl
          · exact ih.2 h2 e h3
        · cases h

theorem newLine_consistent (s s' : Sys V) (a b : Support) (h : s.newLine a b = some s')
    (hc : Consistent s) : Consistent s' ∧ AttachedTo s' (s.nl, .A) a ∧ AttachedTo s' (s.nl, .B) b ∧
      (∀ l < s.nl, ∀ e x, AttachedTo s (l, e) x → AttachedTo s' (l, e) x) := by
  unfold Sys.newLine at h
  simp only at h
  split at h
  swap; · cases h
  split at h
  swap; · cases h
  rename_i va vb
  simp only [Option.some.injEq] at h
  have va' : s.valid a = true := by cases a <;> exact va
  have vb' : s.valid b = true := by cases b <;> exact vb
  have hnp : ∀ x, s'.valid x = s.valid x := by rw [← h]; intro x; cases x <;> rfl
  have hnl : s'.nl = s.nl + 1 := by rw [← h]; rfl
  have hatt : ∀ x, s'.att x = s.att x ++ (if x = a then [(s.nl, End.A)] else []) ++
      (if x = b then [(s.nl, End.B)] else []) := by
    intro x
    rw [← h]
    simp only [Sys.addAt, Function.update_apply]
    by_cases h1 : x = b <;> by_cases h2 : x = a
    · subst h1 h2; simp
    · subst h1; simp [h2]
    · subst h2; simp [h1]
    · simp [h1, h2]
  have hfresh : ∀ x e, (s.nl, e) ∉ s.att x := by
    intro x e hm
    have := (hc.2 x _ e hm).1
    omega
  have keep : ∀ l < s.nl, ∀ e x, AttachedTo s (l, e) x → AttachedTo s' (l, e) x := by
    intro l hl e x hx
    have hne1 : ((s.nl, End.A) == (l, e)) = false := by simp; omega
    have hne2 : ((s.nl, End.B) == (l, e)) = false := by simp; omega
    constructor
    · rw [hatt, List.count_append, List.count_append, hx.1]
      split <;> split <;> simp [List.count_cons, hne1, hne2]
    · intro y hy hm
      rw [hatt] at hm
      simp only [List.mem_append] at hm
      rcases hm with (hm | hm) | hm
      · exact hx.2 y hy hm
      · split at hm <;> simp at hm; omega
      · split at hm <;> simp at hm; omega
  have hA : AttachedTo s' (s.nl, .A) a := by
    constructor
    · rw [hatt, List.count_append, List.count_append, List.count_eq_zero_of_not_mem (hfresh _ _)]
      rw [if_pos rfl]
      split <;> simp [List.count_cons]
    · intro y hy hm
      rw [hatt, if_neg hy] at hm
      simp only [List.mem_append, List.not_mem_nil, or_false] at hm
      rcases hm with hm | hm
      · exact hfresh _ _ hm
      · split at hm <;> simp at hm
  have hB : AttachedTo s' (s.nl, .B) b := by
    constructor
    · rw [hatt, List.count_append, List.count_append, List.count_eq_zero_of_not_mem (hfresh _ _)]
      rw [if_pos (rfl : b = b)]
      split <;> simp [List.count_cons]
    · intro y hy hm
      rw [hatt, if_neg hy] at hm
      simp only [List.mem_append, List.not_mem_nil, or_false] at hm
      rcases hm with hm | hm
      · exact hfresh _ _ hm
      · split at hm <;> simp at hm
  refine ⟨⟨?_, ?_⟩, hA, hB, keep⟩
  · intro l hl e
    rw [hnl] at hl
    by_cases h1 : l < s.nl
    · obtain ⟨x, hx, hx'⟩ := hc.1 l h1 e
      exact ⟨x, by rw [hnp]; exact hx, keep l h1 e x hx'⟩
    · have : l = s.nl := by omega
      subst this
      cases e with
      | A => exact ⟨a, by rw [hnp]; exact va', hA⟩
      | B => exact ⟨b, by rw [hnp]; exact vb', hB⟩
  · intro x l e hm
    rw [hatt] at hm
    simp only [List.mem_append] at hm
    rw [hnp, hnl]
    rcases hm with (hm | hm) | hm
    · have := hc.2 x l e hm
      exact ⟨by omega, this.2⟩
    · split at hm <;> simp at hm
      rename_i hx
      exact ⟨by omega, by rw [hx]; exact va'⟩
    · split at hm <;> simp at hm
      rename_i hx
      exact ⟨by omega, by rw [hx]; exact vb'⟩

/-- moving one entry from `x` to `y ≠ x` -/
theorem move_consistent (s : Sys V) (x y : Support) (hxy : x ≠ y) (vy : s.valid y = true) (l : ℕ)
    (e : End) (as : List Att) (hr : removeLine l (s.att x) = some (e, as)) (hc : Consistent s) :
    let s' := ({ s with att := Function.update s.att x as }.addAt y (l, e))
    Consistent s' ∧ AttachedTo s (l, e) x ∧ AttachedTo s' (l, e) y ∧
      (∀ b z, b ≠ (l, e) → AttachedTo s b z → AttachedTo s' b z) := by
  intro s'
  obtain ⟨hmem, hcount⟩ := (removeLine_spec l (s.att x)).1 e as hr
  have hl := hc.2 x l e hmem
  have hle : AttachedTo s (l, e) x := by
    obtain ⟨z, vz, hz⟩ := hc.1 l hl.1 e
    by_cases hzx : x = z
    · rw [hzx]; exact hz
    · exact absurd hmem (hz.2 x hzx)
  have ax : s'.att x = as := by
    show Function.update (Function.update s.att x as) y _ x = as
    rw [Function.update_of_ne hxy, Function.update_self]
  have ay : s'.att y = s.att y ++ [(l, e)] := by
    show Function.update (Function.update s.att x as) y _ y = _
    rw [Function.update_self]
    congr 1
    exact Function.update_of_ne hxy.symm _ _
  have az : ∀ z, z ≠ x → z ≠ y → s'.att z = s.att z := by
    intro z hz hz'
    show Function.update (Function.update s.att x as) y _ z = _
    rw [Function.update_of_ne hz', Function.update_of_ne hz]
  have hvalid : ∀ z, s'.valid z = s.valid z := by intro z; cases z <;> rfl
  have hleY : AttachedTo s' (l, e) y := by
    constructor
    · rw [ay, List.count_append, List.count_eq_zero_of_not_mem (hle.2 y hxy.symm)]; simp
    · intro z hz hm
      by_cases hzx : z = x
      · rw [hzx, ax] at hm
        have := hcount (l, e)
        rw [hle.1, if_pos rfl] at this
        have h0 : as.count (l, e) = 0 := by omega
        exact (List.count_eq_zero.mp h0) hm
      · rw [az z hzx hz] at hm
        exact hle.2 z hzx hm
  have keep : ∀ b z, b ≠ (l, e) → AttachedTo s b z → AttachedTo s' b z := by
    intro b z hb hz
    have hmemiff : ∀ w, b ∈ s'.att w ↔ b ∈ s.att w := by
      intro w
      by_cases hwx : w = x
      · rw [hwx, ax]
        have := hcount b
        rw [if_neg hb] at this
        rw [← List.count_pos_iff, ← List.count_pos_iff, this]; rfl
      · by_cases hwy : w = y
        · rw [hwy, ay]; simp [hb]
        · rw [az w hwx hwy]
    constructor
    · by_cases hzx : z = x
      · rw [hzx, ax]
        have := hcount b
        rw [if_neg hb] at this
        rw [hzx] at hz
        rw [← hz.1, this]; rfl
      · by_cases hzy : z = y
        · rw [hzy, ay, List.count_append]
          rw [hzy] at hz
          rw [hz.1]
          have : ((l, e) == b) = false := by simpa using fun h => hb h.symm
          simp [List.count_cons, this]
        · rw [az z hzx hzy]; exact hz.1
    · intro w hw hm
      exact hz.2 w hw ((hmemiff w).mp hm)
  refine ⟨⟨?_, ?_⟩, hle, hleY, keep⟩
  · intro l' hl' e'
    by_cases hb : ((l', e') : Att) = (l, e)
    · exact ⟨y, by rw [hvalid]; exact vy, by rw [hb]; exact hleY⟩
    · obtain ⟨z, vz, hz⟩ := hc.1 l' hl' e'
      exact ⟨z, by rw [hvalid]; exact vz, keep _ _ hb hz⟩
  · intro z l' e' hm
    rw [hvalid]
    by_cases hzx : z = x
    · rw [hzx, ax] at hm
      have hm' : (l', e') ∈ s.att x := by
        rw [← List.count_pos_iff] at hm ⊢
        rw [hcount]; omega
      rw [hzx]; exact hc.2 x l' e' hm'
    · by_cases hzy : z = y
      · rw [hzy, ay] at hm
        simp only [List.mem_append, List.mem_singleton] at hm
        rcases hm with hm | hm
        · rw [hzy]; exact hc.2 y l' e' hm
        · simp only [Prod.mk.injEq] at hm
          rw [hzy, hm.1]; exact ⟨hl.1, vy⟩
      · rw [az z hzx hzy] at hm; exact hc.2 z l' e' hm

theorem detachLoop_spec (x y : Support) (hxy : x ≠ y) (ls : List ℕ) (s : Sys V)
    (vy : s.valid y = true) (hc : Consistent s) :
    let r := detachLoop x y ls s
    Consistent r.1 ∧ r.1.np = s.np ∧ r.1.nr = s.nr ∧ r.1.nl = s.nl ∧ r.1.kin = s.kin ∧
      r.1.integ = s.integ ∧ r.1.waves = s.waves ∧
      (∀ b z, (b.1 ∉ ls ∨ z ≠ x) → AttachedTo s b z → AttachedTo r.1 b z) ∧
      (∀ b, AttachedTo s b x → AttachedTo r.1 b x ∨ AttachedTo r.1 b y) ∧
      (r.2 = true → ∀ l ∈ ls, ∃ e, AttachedTo s (l, e) x ∧ AttachedTo r.1 (l, e) y) ∧
      (r.2 = false → ∃ l ∈ ls, ∀ e, ¬ AttachedTo r.1 (l, e) x) ∧
      (∀ l ∈ ls, (∀ e, ¬ AttachedTo s (l, e) x) → r.2 = false) := by
  induction ls generalizing s with
  | nil =>
    show _
    exact ⟨hc, rfl, rfl, rfl, rfl, rfl, rfl, fun b z _ h => h, fun b h => Or.inl h,
      (by intro _ l h; cases h), (by intro h; cases h), (by intro l h; cases h)⟩
  | cons l ls ih =>
    simp only [detachLoop]
    cases hr : removeLine l (s.att x) with
    | none =>
      refine ⟨hc, rfl, rfl, rfl, rfl, rfl, rfl, fun b z _ h => h, fun b h => Or.inl h,
        by simp, ?_, ?_⟩
      · intro _
        refine ⟨l, by simp, fun e h => ?_⟩
        have := (removeLine_spec l (s.att x)).2 hr e
        have h1 := h.1
        rw [List.count_eq_zero_of_not_mem this] at h1
        omega
      · intro _ _ _; rfl
    | some p =>
      obtain ⟨e, as⟩ := p
      simp only
      obtain ⟨m1, m2, m3, m4⟩ := move_consistent s x y hxy vy l e as hr hc
      set s1 := ({ s with att := Function.update s.att x as }.addAt y (l, e)) with hs1
      have vy1 : s1.valid y = true := by rw [← vy]; cases y <;> rfl
      obtain ⟨i1, i2, i3, i4, i5, i5a, i5b, i6, i7, i8, i9, i10⟩ := ih s1 vy1 m1
      have uniq : ∀ (b : Att) (u w : Support), AttachedTo s b u → AttachedTo s b w → u = w := by
        intro b u w hu hw
        by_contra hne
        have : b ∈ s.att u := by rw [← List.count_pos_iff, hu.1]; exact Nat.one_pos
        exact hw.2 u hne this
      refine ⟨i1, i2, i3, i4, i5, i5a, i5b, ?_, ?_, ?_, i9 |> fun h hf => ?_, ?_⟩
      · intro b z hb hz
        have hbne : b ≠ (l, e) := by
          rintro rfl
          rcases hb with hb | hb
          · simp at hb
          · exact hb (uniq _ _ _ hz m2)
        apply i6 b z _ (m4 b z hbne hz)
        rcases hb with hb | hb
        · left; intro hm; exact hb (by simp [hm])
        · right; exact hb
      · intro b hb
        by_cases hbe : b = (l, e)
        · right
          rw [hbe]
          exact i6 _ y (Or.inr hxy.symm) m3
        · exact i7 b (m4 b x hbe hb)
      · intro hok l' hl'
        rcases List.mem_cons.mp hl' with rfl | hl'
        · exact ⟨e, m2, i6 _ y (Or.inr hxy.symm) m3⟩
        · obtain ⟨e', h1, h2⟩ := i8 hok l' hl'
          refine ⟨e', ?_, h2⟩
          -- attached to x after the move, hence before
          have hmem : ((l', e') : Att) ∈ s1.att x := by
            rw [← List.count_pos_iff, h1.1]; exact Nat.one_pos
          obtain ⟨hlt, -⟩ := m1.2 x l' e' hmem
          have hlt' : l' < s.nl := hlt
          obtain ⟨z, vz, hz⟩ := hc.1 l' hlt' e'
          by_cases hbe : ((l', e') : Att) = (l, e)
          · rw [hbe] at h1
            exact absurd (by rw [← List.count_pos_iff, h1.1]; exact Nat.one_pos) (m3.2 x hxy)
          · have := m4 _ z hbe hz
            have hzx : z = x := by
              by_contra hne
              exact absurd (by rw [← List.count_pos_iff, this.1]; exact Nat.one_pos) (h1.2 z hne)
            rw [← hzx]; exact hz
      · obtain ⟨l', hl', h'⟩ := h hf
        exact ⟨l', by simp [hl'], h'⟩
      · intro l' hl' hno
        rcases List.mem_cons.mp hl' with rfl | hl'
        · exact absurd m2 (hno e)
        · apply i10 l' hl'
          intro e' h1
          by_cases hbe : ((l', e') : Att) = (l, e)
          · rw [hbe] at h1
            exact absurd (by rw [← List.count_pos_iff, h1.1]; exact Nat.one_pos) (m3.2 x hxy)
          · have hmem : ((l', e') : Att) ∈ s1.att x := by
              rw [← List.count_pos_iff, h1.1]; exact Nat.one_pos
            obtain ⟨hlt, -⟩ := m1.2 x l' e' hmem
            have hlt' : l' < s.nl := hlt
            obtain ⟨z, vz, hz⟩ := hc.1 l' hlt' e'
            have := m4 _ z hbe hz
            have hzx : z = x := by
              by_contra hne
              exact absurd (by rw [← List.count_pos_iff, this.1]; exact Nat.one_pos) (h1.2 z hne)
            exact hno e' (hzx ▸ hz)

theorem pre_consistent (zero : V) (s : Sys V) (hc : Consistent s) :
    let s1 : Sys V := { s with np := s.np + 1, att := Function.update s.att (.point s.np) [],
                               kin := Function.update s.kin (.point s.np) zero }
    Consistent s1 ∧ s1.valid (.point s.np) = true ∧
      (∀ b z, AttachedTo s b z ↔ AttachedTo s1 b z) := by
  intro s1
  have hempty : s.att (.point s.np) = [] := by
    by_contra hne
    obtain ⟨⟨l, e⟩, hm⟩ := List.exists_mem_of_ne_nil _ hne
    have := (hc.2 _ l e hm).2
    simp [Sys.valid] at this
  have hatt : s1.att = s.att := by
    show Function.update s.att (.point s.np) [] = s.att
    rw [← hempty]; exact Function.update_eq_self _ _
  have hv : ∀ x, s.valid x = true → s1.valid x = true := by
    intro x hx
    cases x with
    | point i => simp only [Sys.valid, decide_eq_true_eq] at hx ⊢; show i < s.np + 1; omega
    | rod i e => exact hx
  have hA : ∀ b z, AttachedTo s b z ↔ AttachedTo s1 b z := by
    intro b z; unfold AttachedTo; rw [hatt]
  refine ⟨⟨?_, ?_⟩, by simp [Sys.valid, s1], hA⟩
  · intro l hl e
    obtain ⟨x, hx, h⟩ := hc.1 l hl e
    exact ⟨x, hv x hx, (hA _ _).mp h⟩
  · intro x l e hm
    rw [hatt] at hm
    have := hc.2 x l e hm
    exact ⟨this.1, hv x this.2⟩

/-! ## C16 -/

/-- C16, reading: after reading any list of lines with the ends at any supports, the
attachments are consistent, with end A (B) of each line at its first (second)
support. -/
theorem C16_read_lines (rows : List (Support × Support)) (s s' : Sys V) (hs : s.Fresh)
    (h : rows.foldlM (fun s p => s.newLine p.1 p.2) s = some s') :
    Consistent s' ∧ s'.nl = rows.length ∧ ∀ (i : ℕ) (p : Support × Support), rows[i]? = some p →
      AttachedTo s' (i, .A) p.1 ∧ AttachedTo s' (i, .B) p.2 := by
  have key : ∀ (rows : List (Support × Support)) (s s' : Sys V), Consistent s →
      rows.foldlM (fun s p => s.newLine p.1 p.2) s = some s' →
      Consistent s' ∧ s'.nl = s.nl + rows.length ∧
      (∀ l < s.nl, ∀ e x, AttachedTo s (l, e) x → AttachedTo s' (l, e) x) ∧
      ∀ (i : ℕ) (p : Support × Support), rows[i]? = some p →
        AttachedTo s' (s.nl + i, .A) p.1 ∧ AttachedTo s' (s.nl + i, .B) p.2 := by
    intro rows
    induction rows with
    | nil =>
      intro s s' hc h
      simp at h
      subst h
      exact ⟨hc, by simp, fun _ _ _ _ h => h, by simp⟩
    | cons p rows ih =>
      intro s s' hc h
      simp only [List.foldlM_cons, Option.bind_eq_bind, Option.bind_eq_some_iff] at h
      obtain ⟨s1, h1, h2⟩ := h
      obtain ⟨c1, a1, b1, k1⟩ := newLine_consistent s s1 p.1 p.2 h1 hc
      have hnl : s1.nl = s.nl + 1 := by
        unfold Sys.newLine at h1
        simp only at h1
        split at h1
        · split at h1
          · simp only [Option.some.injEq] at h1; rw [← h1]; rfl
          · cases h1
        · cases h1
      obtain ⟨c2, n2, k2, r2⟩ := ih s1 s' c1 h2
      refine ⟨c2, by rw [n2, hnl, List.length_cons]; omega, ?_, ?_⟩
      · intro l hl e x hx
        exact k2 l (by omega) e x (k1 l hl e x hx)
      · intro i q hq
        cases i with
        | zero =>
          simp at hq
          subst hq
          exact ⟨k2 s.nl (by omega) _ _ a1, k2 s.nl (by omega) _ _ b1⟩
        | succ i =>
          simp only [List.getElem?_cons_succ] at hq
          have := r2 i q hq
          rw [hnl] at this
          rw [show s.nl + (i + 1) = s.nl + 1 + i by omega]
          exact this
  have hc : Consistent s := ⟨by rw [hs.1]; intro l hl; omega, by intro x l e hm; rw [hs.2] at hm; cases hm⟩
  obtain ⟨c, n, -, r⟩ := key rows s s' hc h
  rw [hs.1] at n r
  refine ⟨c, by rw [n]; omega, ?_⟩
  intro i p hp
  have := r i p hp
  rw [Nat.zero_add] at this
  exact this

/-- C16, detachment: on success each of the given lines had one end at `x`, which is now
attached to the new point (number `np`), located where `x` is; every other line end
stays where it was; the attachments are consistent in any case, success or error. -/
theorem C16_detach (zero : V) (x : Support) (lines : List ℕ) (s : Sys V) (hc : Consistent s)
    (hx : s.valid x = true) :
    let r := detach zero x lines s
    Consistent r.1 ∧ r.1.np = s.np + 1 ∧ r.1.nl = s.nl ∧ r.1.nr = s.nr ∧
    (∀ b z, (b.1 ∉ lines ∨ z ≠ x) → AttachedTo s b z → AttachedTo r.1 b z) ∧
    (∀ b, AttachedTo s b x → AttachedTo r.1 b x ∨ AttachedTo r.1 b (.point s.np)) ∧
    (∀ y, y ≠ .point s.np → r.1.kin y = s.kin y) ∧
    (r.2 = true → r.1.kin (.point s.np) = s.kin x ∧
      ∀ l ∈ lines, ∃ e, AttachedTo s (l, e) x ∧ AttachedTo r.1 (l, e) (.point s.np)) := by
  intro r
  have hne : x ≠ .point s.np := by
    rintro rfl; simp [Sys.valid] at hx
  obtain ⟨p1, p2, p3⟩ := pre_consistent zero s hc
  obtain ⟨i1, i2, i3, i4, i5, i5a, i5b, i6, i7, i8, i9, i10⟩ :=
    detachLoop_spec x (.point s.np) hne lines _ p2 p1
  have hr : r = detach zero x lines s := rfl
  unfold detach at hr
  simp only at hr
  generalize hg : detachLoop x (.point s.np) lines { s with np := s.np + 1, att := Function.update s.att (.point s.np) [], kin := Function.update s.kin (.point s.np) zero } = q at hr i1 i2 i3 i4 i5 i6 i7 i8 i9 i10
  obtain ⟨q1, q2⟩ := q
  have hAT : ∀ (k : Support → V) b z, AttachedTo ({ q1 with kin := k }) b z ↔ AttachedTo q1 b z :=
    fun k b z => Iff.rfl
  cases q2 with
  | false =>
    simp only at hr i1 i2 i3 i4 i5 i6 i7
    rw [hr]
    refine ⟨i1, i2, i4, i3, fun b z h h' => i6 b z h ((p3 b z).mp h'),
      fun b h => i7 b ((p3 b x).mp h), ?_, by simp⟩
    intro y hy
    simp only [i5, Function.update_of_ne hy]
  | true =>
    simp only at hr i1 i2 i3 i4 i5 i6 i7 i8
    rw [hr]
    have hc' : Consistent ({ q1 with kin := Function.update q1.kin (.point s.np) (s.kin x) } : Sys V) := by
      refine ⟨?_, ?_⟩
      · intro l hl e
        obtain ⟨z, vz, hz⟩ := i1.1 l hl e
        exact ⟨z, by rw [← vz]; cases z <;> rfl, hz⟩
      · intro z l e hm
        obtain ⟨a, b⟩ := i1.2 z l e hm
        exact ⟨a, by rw [← b]; cases z <;> rfl⟩
    refine ⟨hc', i2, i4, i3, fun b z h h' => i6 b z h ((p3 b z).mp h'),
      fun b h => i7 b ((p3 b x).mp h), ?_, ?_⟩
    · intro y hy
      simp only [Function.update_of_ne hy, i5]
    · intro _
      refine ⟨by simp, ?_⟩
      intro l hl
      obtain ⟨e, h1, h2⟩ := i8 trivial l hl
      exact ⟨e, (p3 _ _).mpr h1, h2⟩

/-- C16, errors: naming a line none of whose ends is attached there is an error. -/
theorem C16_detach_error (zero : V) (x : Support) (lines : List ℕ) (s : Sys V) (hc : Consistent s)
    (hx : s.valid x = true) (l : ℕ) (hl : l ∈ lines) (hno : ∀ e, ¬ AttachedTo s (l, e) x) :
    (detach zero x lines s).2 = false := by
  have hne : x ≠ .point s.np := by
    rintro rfl; simp [Sys.valid] at hx
  obtain ⟨p1, p2, p3⟩ := pre_consistent zero s hc
  obtain ⟨-, -, -, -, -, -, -, -, -, -, -, i10⟩ :=
    detachLoop_spec x (.point s.np) hne lines _ p2 p1
  have := i10 l hl (fun e h => hno e ((p3 _ _).mpr h))
  unfold detach
  simp only
  generalize hg : detachLoop x (.point s.np) lines { s with np := s.np + 1, att := Function.update s.att (.point s.np) [], kin := Function.update s.kin (.point s.np) zero } = q at this
  obtain ⟨q1, q2⟩ := q
  simp only at this
  subst this
  rfl

theorem detachLoop_ok (x y : Support) (hxy : x ≠ y) (ls : List ℕ) (s : Sys V)
    (vy : s.valid y = true) (hc : Consistent s) (hd : ls.Nodup)
    (ha : ∀ l ∈ ls, ∃ e, AttachedTo s (l, e) x) : (detachLoop x y ls s).2 = true := by
  induction ls generalizing s with
  | nil => rfl
  | cons l ls ih =>
    simp only [detachLoop]
    cases hr : removeLine l (s.att x) with
    | none =>
      obtain ⟨e, he⟩ := ha l (by simp)
      have := (removeLine_spec l (s.att x)).2 hr e
      have h1 := he.1
      rw [List.count_eq_zero_of_not_mem this] at h1
      omega
    | some p =>
      obtain ⟨e, as⟩ := p
      obtain ⟨m1, m2, m3, m4⟩ := move_consistent s x y hxy vy l e as hr hc
      rw [List.nodup_cons] at hd
      refine ih _ (by rw [← vy]; cases y <;> rfl) m1 hd.2 fun l' hl' => ?_
      obtain ⟨e', he'⟩ := ha l' (by simp [hl'])
      refine ⟨e', m4 _ _ ?_ he'⟩
      intro h
      simp only [Prod.mk.injEq] at h
      exact hd.1 (h.1 ▸ hl')

/-- C16: detaching different lines that have an end there succeeds. -/
theorem C16_detach_succeeds (zero : V) (x : Support) (lines : List ℕ) (s : Sys V)
    (hc : Consistent s) (hx : s.valid x = true) (hd : lines.Nodup)
    (ha : ∀ l ∈ lines, ∃ e, AttachedTo s (l, e) x) : (detach zero x lines s).2 = true := by
  have hne : x ≠ .point s.np := by
    rintro rfl; simp [Sys.valid] at hx
  obtain ⟨p1, p2, p3⟩ := pre_consistent zero s hc
  have := detachLoop_ok x (.point s.np) hne lines _ p2 p1 hd fun l hl => by
    obtain ⟨e, he⟩ := ha l hl
    exact ⟨e, (p3 _ _).mp he⟩
  unfold detach
  simp only
  generalize hg : detachLoop x (.point s.np) lines { s with np := s.np + 1, att := Function.update s.att (.point s.np) [], kin := Function.update s.kin (.point s.np) zero } = q at this
  obtain ⟨q1, q2⟩ := q
  simp only at this
  subst this
  rfl

/-- C16, all together: after reading any lines and any sequence of detachments from
existing supports (failed ones included), every line end is attached to exactly one
support. -/
theorem C16_always_consistent (zero : V) (rows : List (Support × Support)) (s s0 : Sys V)
    (hs : s.Fresh) (h : rows.foldlM (fun s p => s.newLine p.1 p.2) s = some s0)
    (ds : List (Support × List ℕ)) (hd : ∀ d ∈ ds, s0.valid d.1 = true) :
    let s' := ds.foldl (fun s d => (detach zero d.1 d.2 s).1) s0
    Consistent s' ∧ s'.nl = rows.length ∧
      ∀ l < rows.length, ∀ e, ∃ x, AttachedTo s' (l, e) x := by
  obtain ⟨c0, n0, -⟩ := C16_read_lines rows s s0 hs h
  have key : ∀ (ds : List (Support × List ℕ)) (s0 : Sys V), Consistent s0 →
      (∀ d ∈ ds, s0.valid d.1 = true) →
      Consistent (ds.foldl (fun s d => (detach zero d.1 d.2 s).1) s0) ∧
      (ds.foldl (fun s d => (detach zero d.1 d.2 s).1) s0).nl = s0.nl := by
    intro ds
    induction ds with
    | nil => intro s0 h _; exact ⟨h, rfl⟩
    | cons d ds ih =>
      intro s0 hc hd
      obtain ⟨k1, k2, k3, k4, -⟩ := C16_detach zero d.1 d.2 s0 hc (hd d (by simp))
      have hv : ∀ y, s0.valid y = true → (detach zero d.1 d.2 s0).1.valid y = true := by
        intro y hy
        cases y with
        | point i => simp only [Sys.valid, decide_eq_true_eq] at hy ⊢; rw [k2]; omega
        | rod i e => simp only [Sys.valid, decide_eq_true_eq] at hy ⊢; rw [k4]; exact hy
      obtain ⟨j1, j2⟩ := ih _ k1 (fun d' hd' => hv _ (hd d' (by simp [hd'])))
      exact ⟨j1, by rw [List.foldl_cons, j2, k3]⟩
  obtain ⟨c, n⟩ := key ds s0 c0 hd
  refine ⟨c, by rw [n, n0], ?_⟩
  intro l hl e
  obtain ⟨x, -, hx⟩ := c.1 l (by rw [n, n0]; exact hl) e
  exact ⟨x, hx⟩

/-- a system with two points, a rod and no lines -/
def demo : Sys ℕ := ⟨2, 1, 0, fun _ => [], fun _ => 7, [0, 1], [0, 1]⟩

/-- non-vacuity of C16: two lines from points 0 and 1 to rod end 0A, the second is
detached from the rod -/
example : ∃ s, [(Support.point 0, Support.rod 0 .A), (Support.point 1, Support.rod 0 .A)].foldlM
      (fun s p => s.newLine p.1 p.2) demo = some s ∧
    ((detach 0 (.rod 0 .A) [1] s).1.att (.rod 0 .A) = [(0, .B)]) ∧
    ((detach 0 (.rod 0 .A) [1] s).1.att (.point 2) = [(1, .B)]) ∧
    (detach 0 (.rod 0 .A) [1] s).2 = true := by
  refine ⟨_, rfl, ?_, ?_, ?_⟩ <;> decide

/-! ## C17 -/

section
variable {T : Type} [LinearOrder T]

/-- successive steps ending at the given times, while there is no error; the result
has the failures and the pairs (step number, failure number) triggered -/
def runFails (zero : V) : ℕ → List T → List (Fail T) → Sys V → List (Fail T) × List (ℕ × ℕ)
  | _, [], fs, _ => (fs, [])
  | k, t :: ts, fs, s =>
    match checkFails zero t 0 fs s with
    | (_, fs, tr, false) => (fs, tr.map fun i => (k, i))
    | (s, fs, tr, true) =>
      let (fs', tr') := runFails zero (k + 1) ts fs s
      (fs', (tr.map fun i => (k, i)) ++ tr')

theorem checkFails_spec (zero : V) (t : T) (i : ℕ) (fs : List (Fail T)) (s : Sys V) :
    let r := checkFails zero t i fs s
    r.2.1.length = fs.length ∧
    (∀ j ∈ r.2.2.1, ∃ k f, j = i + k ∧ fs[k]? = some f ∧ f.status = false ∧ t ≤ f.time ∧
      ∃ f', r.2.1[k]? = some f' ∧ f'.status = true) ∧
    r.2.2.1.Nodup ∧
    (∀ (k : ℕ) (f : Fail T), fs[k]? = some f → f.status = true →
      ∃ f', r.2.1[k]? = some f' ∧ f'.status = true) ∧
    (r.2.2.2 = true → ∀ (k : ℕ) (f : Fail T), fs[k]? = some f →
      ((i + k) ∈ r.2.2.1 ↔ f.status = false ∧ t ≤ f.time) ∧
      ∃ f', r.2.1[k]? = some f' ∧ f'.time = f.time ∧
        (f'.status = true ↔ f.status = true ∨ t ≤ f.time)) := by
  induction fs generalizing i s with
  | nil => simp [checkFails]
  | cons f fs ih =>
    unfold checkFails
    by_cases hskip : (f.status || decide (f.time < t)) = true
    · rw [if_pos hskip]
      obtain ⟨a1, a2, a3, a4, a5⟩ := ih (i + 1) s
      generalize hg : checkFails zero t (i + 1) fs s = q at a1 a2 a3 a4 a5
      obtain ⟨q1, q2, q3, q4⟩ := q
      simp only at a1 a2 a3 a4 a5 ⊢
      refine ⟨by simp [a1], ?_, a3, ?_, ?_⟩
      · intro j hj
        obtain ⟨k, f1, h1, h2, h3, h4, f2, h5, h6⟩ := a2 j hj
        exact ⟨k + 1, f1, by omega, by simpa using h2, h3, h4, f2, by simpa using h5, h6⟩
      · intro k f1 hk hst
        cases k with
        | zero => simp at hk; subst hk; exact ⟨f, by simp, hst⟩
        | succ k =>
          simp only [List.getElem?_cons_succ] at hk ⊢
          exact a4 k f1 hk hst
      · intro hok k f1 hk
        cases k with
        | zero =>
          simp only [List.getElem?_cons_zero, Option.some.injEq] at hk
          subst hk
          have hnot : ¬ (f.status = false ∧ t ≤ f.time) := by
            rintro ⟨h1, h2⟩
            rw [h1] at hskip
            simp only [Bool.false_or, decide_eq_true_eq] at hskip
            exact absurd hskip (not_lt.mpr h2)
          refine ⟨⟨?_, fun h => absurd h hnot⟩, f, by simp, rfl, ?_⟩
          · intro hm
            obtain ⟨k, -, h, -⟩ := a2 _ hm
            omega
          · constructor
            · exact Or.inl
            · rintro (h | h)
              · exact h
              · by_contra hf
                exact hnot ⟨by simpa using hf, h⟩
        | succ k =>
          simp only [List.getElem?_cons_succ] at hk ⊢
          have := a5 hok k f1 hk
          rw [show i + (k + 1) = i + 1 + k by omega]
          exact this
    · rw [if_neg hskip]
      have hst : f.status = false := by
        cases hs : f.status
        · rfl
        · rw [hs] at hskip; simp at hskip
      have htime : t ≤ f.time := by
        rw [hst] at hskip
        simpa using hskip
      cases hd : detach zero f.target f.lines s with
      | mk s1 ok =>
        cases ok with
        | false =>
          simp only
          refine ⟨by simp, ?_, by simp, ?_, by simp⟩
          · intro j hj
            simp only [List.mem_singleton] at hj
            exact ⟨0, f, by omega, by simp, hst, htime, _, List.getElem?_cons_zero, rfl⟩
          · intro k f1 hk hs1
            cases k with
            | zero => exact ⟨_, List.getElem?_cons_zero, rfl⟩
            | succ k => exact ⟨f1, by simpa using hk, hs1⟩
        | true =>
          obtain ⟨a1, a2, a3, a4, a5⟩ := ih (i + 1) s1
          simp only
          generalize hg : checkFails zero t (i + 1) fs s1 = q at a1 a2 a3 a4 a5
          obtain ⟨q1, q2, q3, q4⟩ := q
          simp only at a1 a2 a3 a4 a5 ⊢
          refine ⟨by simp [a1], ?_, ?_, ?_, ?_⟩
          · intro j hj
            rcases List.mem_cons.mp hj with rfl | hj
            · exact ⟨0, f, by omega, by simp, hst, htime, _, List.getElem?_cons_zero, rfl⟩
            · obtain ⟨k, f1, h1, h2, h3, h4, f2, h5, h6⟩ := a2 j hj
              exact ⟨k + 1, f1, by omega, by simpa using h2, h3, h4, f2, by simpa using h5, h6⟩
          · rw [List.nodup_cons]
            refine ⟨?_, a3⟩
            intro hm
            obtain ⟨k, -, h, -⟩ := a2 _ hm
            omega
          · intro k f1 hk hs1
            cases k with
            | zero => exact ⟨_, List.getElem?_cons_zero, rfl⟩
            | succ k =>
              simp only [List.getElem?_cons_succ] at hk ⊢
              exact a4 k f1 hk hs1
          · intro hok k f1 hk
            cases k with
            | zero =>
              simp only [List.getElem?_cons_zero, Option.some.injEq] at hk
              subst hk
              exact ⟨⟨fun _ => ⟨hst, htime⟩, fun _ => by simp⟩, _, List.getElem?_cons_zero, rfl,
                ⟨fun _ => Or.inr htime, fun _ => rfl⟩⟩
            | succ k =>
              simp only [List.getElem?_cons_succ] at hk ⊢
              have := a5 hok k f1 hk
              rw [show i + (k + 1) = i + 1 + k by omega]
              refine ⟨⟨fun h => this.1.mp ?_, fun h => List.mem_cons_of_mem _ (this.1.mpr h)⟩, this.2⟩
              rcases List.mem_cons.mp h with h | h
              · omega
              · exact h

/-- C17, once: in any sequence of steps, with or without errors, no failure is triggered
twice.  Missing with respect to C17: the triggering time, see
`C17_actual_trigger` and `C17_as_stated_false`. -/
theorem C17_at_most_once_partial (zero : V) (ts : List T) (fs : List (Fail T)) (s : Sys V) (k0 : ℕ)
    (i : ℕ) : ((runFails zero k0 ts fs s).2.filter fun p => p.2 = i).length ≤ 1 := by
  have main : ∀ (ts : List T) (fs : List (Fail T)) (s : Sys V) (k0 : ℕ),
      ((runFails zero k0 ts fs s).2.filter fun p => p.2 = i).length ≤ 1 ∧
      (∀ f, fs[i]? = some f → f.status = true →
        (runFails zero k0 ts fs s).2.filter (fun p => p.2 = i) = []) := by
    intro ts
    induction ts with
    | nil => intro fs s k0; simp [runFails]
    | cons t ts ih =>
      intro fs s k0
      obtain ⟨a1, a2, a3, a4, -⟩ := checkFails_spec zero t 0 fs s
      unfold runFails
      generalize hg : checkFails zero t 0 fs s = q at a1 a2 a3 a4
      obtain ⟨q1, q2, q3, q4⟩ := q
      simp only at a1 a2 a3 a4
      have hcnt : ((q3.map fun j => (k0, j)).filter fun p => decide (p.2 = i)).length = q3.count i := by
        rw [List.filter_map, List.length_map, List.count, List.countP_eq_length_filter]
        congr 1
      have hle : q3.count i ≤ 1 := List.nodup_iff_count_le_one.mp a3 i
      have hzero : ∀ f, fs[i]? = some f → f.status = true → q3.count i = 0 := by
        intro f hf hst
        apply List.count_eq_zero_of_not_mem
        intro hm
        obtain ⟨k, f1, h1, h2, h3, -⟩ := a2 i hm
        rw [show k = i by omega, hf] at h2
        cases h2
        rw [hst] at h3; cases h3
      cases q4 with
      | false =>
        simp only
        refine ⟨by rw [hcnt]; exact hle, ?_⟩
        intro f hf hst
        rw [← List.length_eq_zero_iff, hcnt]
        exact hzero f hf hst
      | true =>
        obtain ⟨b1, b2⟩ := ih q2 q1 (k0 + 1)
        simp only
        generalize runFails zero (k0 + 1) ts q2 q1 = w at b1 b2
        obtain ⟨w1, w2⟩ := w
        simp only at b1 b2 ⊢
        rw [List.filter_append, List.length_append, hcnt]
        constructor
        · by_cases hm : i ∈ q3
          · obtain ⟨k, f1, h1, h2, h3, h4, f2, h5, h6⟩ := a2 i hm
            rw [show k = i by omega] at h5
            rw [b2 f2 h5 h6]; simpa using hle
          · rw [List.count_eq_zero_of_not_mem hm]; omega
        · intro f hf hst
          obtain ⟨f', h5, h6⟩ := a4 i f hf hst
          rw [b2 f' h5 h6, List.append_nil, ← List.length_eq_zero_iff, hcnt]
          exact hzero f hf hst
  exact (main ts fs s k0).1

/-- What the code does: at the end of the first step (time `t`) without errors, the
failures triggered are those whose time is at or *after* `t`, and those whose time is
before never are, in any later step. -/
theorem C17_actual_trigger (zero : V) (t : T) (fs : List (Fail T)) (s : Sys V)
    (hok : (checkFails zero t 0 fs s).2.2.2 = true) (k : ℕ) (f : Fail T) (hf : fs[k]? = some f)
    (hst : f.status = false) :
    (k ∈ (checkFails zero t 0 fs s).2.2.1 ↔ t ≤ f.time) ∧
    (f.time < t → ∀ (t' : T), t ≤ t' → ∀ s', (checkFails zero t' 0
      (checkFails zero t 0 fs s).2.1 s').2.2.2 = true →
      k ∉ (checkFails zero t' 0 (checkFails zero t 0 fs s).2.1 s').2.2.1) := by
  obtain ⟨-, -, -, -, a5⟩ := checkFails_spec zero t 0 fs s
  obtain ⟨h1, f', h2, h3, h4⟩ := a5 hok k f hf
  rw [Nat.zero_add] at h1
  refine ⟨by rw [h1]; simp [hst], ?_⟩
  intro hlt t' ht' s' hok'
  obtain ⟨-, -, -, -, b5⟩ := checkFails_spec zero t' 0 (checkFails zero t 0 fs s).2.1 s'
  obtain ⟨g1, -⟩ := b5 hok' k f' h2
  rw [Nat.zero_add] at g1
  rw [g1, h3]
  rintro ⟨-, h⟩
  exact absurd (lt_of_lt_of_le hlt ht') (not_lt.mpr h)

end

/-- C17 as stated is false: a failure set for time 100 is triggered at the end of a step
ending at time 1, and one set for time 1/2 is not. -/
theorem C17_as_stated_false :
    (runFails (T := ℚ) 0 0 [1, 2] [⟨.point 0, [], 100, false⟩, ⟨.point 0, [], 1 / 2, false⟩] demo).2
      = [(0, 0)] := by
  have h1 : ¬ ((100 : ℚ) < 1) := by norm_num
  have h2 : ((1 / 2 : ℚ) < 1) := by norm_num
  have h3 : ((1 / 2 : ℚ) < 2) := by norm_num
  have h4 : ((2⁻¹ : ℚ) < 1) := by norm_num
  have h5 : ((2⁻¹ : ℚ) < 2) := by norm_num
  simp [runFails, checkFails, detach, detachLoop, h1, h2, h3, h4, h5]

/-! ## C19 -/

/-- C19 is false in every model, for every failure, successful or not: the point
created has number `np` and is neither registered in the integrator nor in the wave
kinematics (where only existing points were registered). -/
theorem C19_new_point_not_simulated_false (zero : V) (x : Support) (lines : List ℕ) (s : Sys V)
    (hi : ∀ i ∈ s.integ, i < s.np) (hw : ∀ i ∈ s.waves, i < s.np) (hc : Consistent s)
    (hx : s.valid x = true) :
    let s' := (detach zero x lines s).1
    s'.np = s.np + 1 ∧ s.np ∉ s'.integ ∧ s.np ∉ s'.waves ∧ s'.integ = s.integ ∧
      s'.waves = s.waves := by
  have hne : x ≠ .point s.np := by
    rintro rfl; simp [Sys.valid] at hx
  obtain ⟨p1, p2, p3⟩ := pre_consistent zero s hc
  obtain ⟨-, i2, -, -, -, i5a, i5b, -⟩ := detachLoop_spec x (.point s.np) hne lines _ p2 p1
  intro s'
  have hs : s' = (detach zero x lines s).1 := rfl
  unfold detach at hs
  simp only at hs
  generalize hg : detachLoop x (.point s.np) lines { s with np := s.np + 1, att := Function.update s.att (.point s.np) [], kin := Function.update s.kin (.point s.np) zero } = q at hs i2 i5a i5b
  obtain ⟨q1, q2⟩ := q
  simp only at i2 i5a i5b
  have e1 : s'.integ = s.integ := by cases q2 <;> (rw [hs]; exact i5a)
  have e2 : s'.waves = s.waves := by cases q2 <;> (rw [hs]; exact i5b)
  have e3 : s'.np = s.np + 1 := by cases q2 <;> (rw [hs]; exact i2)
  refine ⟨e3, ?_, ?_, e1, e2⟩
  · rw [e1]; intro h; have := hi _ h; omega
  · rw [e2]; intro h; have := hw _ h; omega

/-- C19, what does hold: the point created is where the released support was, with its
velocity, and the released line ends are attached to it (and not to the support any
more).  Missing: it is not simulated, see `C19_new_point_not_simulated_false`. -/
theorem C19_release_state_partial (zero : V) (x : Support) (lines : List ℕ) (s : Sys V)
    (hc : Consistent s) (hx : s.valid x = true) (hok : (detach zero x lines s).2 = true) :
    (detach zero x lines s).1.kin (.point s.np) = s.kin x ∧
    (detach zero x lines s).1.kin x = s.kin x ∧
    ∀ l ∈ lines, ∃ e, (l, e) ∈ s.att x ∧ (l, e) ∈ (detach zero x lines s).1.att (.point s.np) ∧
      (l, e) ∉ (detach zero x lines s).1.att x := by
  obtain ⟨-, -, -, -, -, -, h7, h8⟩ := C16_detach zero x lines s hc hx
  obtain ⟨h9, h10⟩ := h8 hok
  have hne : x ≠ .point s.np := by
    rintro rfl; simp [Sys.valid] at hx
  refine ⟨h9, h7 x hne, ?_⟩
  intro l hl
  obtain ⟨e, a, b⟩ := h10 l hl
  refine ⟨e, ?_, ?_, b.2 x hne⟩
  · rw [← List.count_pos_iff, a.1]; exact Nat.one_pos
  · rw [← List.count_pos_iff, b.1]; exact Nat.one_pos

/-- the hypotheses of `C19_new_point_not_simulated_false` are met -/
example : (∀ i ∈ demo.integ, i < demo.np) ∧ (∀ i ∈ demo.waves, i < demo.np) ∧
    demo.valid (.point 1) = true ∧ Consistent demo := by
  refine ⟨by decide, by decide, by decide, ?_, ?_⟩
  · intro l hl; simp [demo] at hl
  · intro x l e h; simp [demo] at h

end MD.Attach
