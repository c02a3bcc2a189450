import Verif.Lemmas.Valued
import Verif.Lemmas.Relate
import Verif.Spec.Within

/-!
# A part of a system does what it does alone
-/

set_option linter.unusedSimpArgs false
set_option linter.unusedSectionVars false
set_option linter.unusedVariables false
set_option linter.unnecessarySeqFocus false

namespace MD.Whole

open MD.Mooring Matrix
open MD.Moored (Kind)

variable {Q FL FP FR FB Wt : Type} {S S' : System Q FL FP FR FB Wt} {β : Names}

/-- A body there is, or the ground. -/
def Is (S' : System Q FL FP FR FB Wt) : Option ℕ → Prop
  | none => True
  | some b => b < S'.nb

theorem is_pts (hS' : Sound S') {b : Option ℕ} {a : ℕ × V} (ha : a ∈ S'.pts b) : Is S' b := by
  cases b with
  | none => trivial
  | some b => exact hS'.bodyNum b (.inl ⟨a, ha⟩)

theorem is_rods (hS' : Sound S') {b : Option ℕ} {a : ℕ × V × V} (ha : a ∈ S'.rods b) : Is S' b := by
  cases b with
  | none => trivial
  | some b => exact hS'.bodyNum b (.inr ⟨a, ha⟩)

theorem SameMem.bodyOf {m m' : Mem Q FL FP FR FB} (h : SameMem β S' m m') {b : Option ℕ} (hb : Is S' b) :
    m'.bodyOf b = m.bodyOf (b.map β.body) := by
  cases b with
  | none => exact h.ground
  | some b => exact h.body b hb

section
variable (hw : Within β S S') (hS : Sound S) (hS' : Sound S')
include hw

theorem moves_iff {b : Option ℕ} (hb : Is S' b) : Moves S (b.map β.body) ↔ Moves S' b := by
  cases b with
  | none => exact Iff.rfl
  | some b =>
    have hb' : b < S'.nb := hb
    show (β.body b < S.nb ∧ S.bkind (β.body b) ≠ .FIXED) ↔ (b < S'.nb ∧ S'.bkind b ≠ .FIXED)
    rw [hw.bkind b hb']
    exact ⟨fun h => ⟨hb', h.2⟩, fun h => ⟨hw.nb b hb', h.2⟩⟩

theorem counts_body {b : ℕ} (hb : b < S'.nb) : BodyCounts S (β.body b) ↔ BodyCounts S' b := moves_iff hw (b := some b) hb

include hS'

theorem pts_fwd {b : Option ℕ} {a : ℕ × V} (ha : a ∈ S'.pts b) : (β.point a.1, a.2) ∈ S.pts (b.map β.body) := by
  cases b with
  | none => exact hw.groundPts a ha
  | some b =>
    refine (hw.pts b (is_pts hS' ha)).mem_iff.mpr ?_
    exact List.mem_map_of_mem (f := fun a : ℕ × V => (β.point a.1, a.2)) ha

theorem rods_fwd {b : Option ℕ} {a : ℕ × V × V} (ha : a ∈ S'.rods b) : (β.rod a.1, a.2) ∈ S.rods (b.map β.body) := by
  cases b with
  | none => exact hw.groundRods a ha
  | some b =>
    refine (hw.rods b (is_rods hS' ha)).mem_iff.mpr ?_
    exact List.mem_map_of_mem (f := fun a : ℕ × V × V => (β.rod a.1, a.2)) ha

theorem moved_point {i : ℕ} (hi : i < S'.np) :
    (∃ b, Moves S b ∧ ∃ rel, (β.point i, rel) ∈ S.pts b) ↔ ∃ b, Moves S' b ∧ ∃ rel, (i, rel) ∈ S'.pts b := by
  constructor
  · rintro ⟨b, hb, rel, hr⟩
    obtain ⟨b', rfl, hr'⟩ := hw.ptsBack i hi b rel hr
    exact ⟨b', (moves_iff hw (is_pts hS' hr')).mp hb, rel, hr'⟩
  · rintro ⟨b, hb, rel, hr⟩
    exact ⟨b.map β.body, (moves_iff hw (is_pts hS' hr)).mpr hb, rel, pts_fwd hw hS' hr⟩

theorem moved_rod {i : ℕ} (hi : i < S'.nr) :
    (∃ b, Moves S b ∧ ∃ rel, (β.rod i, rel) ∈ S.rods b) ↔ ∃ b, Moves S' b ∧ ∃ rel, (i, rel) ∈ S'.rods b := by
  constructor
  · rintro ⟨b, hb, rel, hr⟩
    obtain ⟨b', rfl, hr'⟩ := hw.rodsBack i hi b rel hr
    exact ⟨b', (moves_iff hw (is_rods hS' hr')).mp hb, rel, hr'⟩
  · rintro ⟨b, hb, rel, hr⟩
    exact ⟨b.map β.body, (moves_iff hw (is_rods hS' hr)).mpr hb, rel, rods_fwd hw hS' hr⟩

theorem pmoves_iff {i : ℕ} (hi : i < S'.np) : PMoves S (β.point i) ↔ PMoves S' i := by
  unfold PMoves
  rw [moved_point hw hS' hi, hw.pkind i hi]
  exact or_congr ⟨fun h => ⟨hi, h.2⟩, fun h => ⟨hw.np i hi, h.2⟩⟩ Iff.rfl

theorem rmoves_iff {i : ℕ} (hi : i < S'.nr) : RMoves S (β.rod i) ↔ RMoves S' i := by
  unfold RMoves
  rw [moved_rod hw hS' hi, hw.rkind i hi]
  exact or_congr ⟨fun h => ⟨hi, h.2⟩, fun h => ⟨hw.nr i hi, h.2⟩⟩ Iff.rfl

theorem counts_point {i : ℕ} (hi : i < S'.np) : PointCounts S (β.point i) ↔ PointCounts S' i := by
  unfold PointCounts
  rw [hw.pkind i hi]
  refine or_congr ⟨fun h => ⟨hi, h.2⟩, fun h => ⟨hw.np i hi, h.2⟩⟩ ⟨?_, ?_⟩
  · rintro ⟨b, hb, rel, hr⟩
    obtain ⟨b', hb', hr'⟩ := hw.ptsBack i hi _ rel hr
    cases b' with
    | none => cases hb'
    | some b' =>
      cases hb'
      exact ⟨b', (counts_body hw (is_pts hS' hr')).mp hb, rel, hr'⟩
  · rintro ⟨b, hb, rel, hr⟩
    exact ⟨β.body b, (counts_body hw (is_pts hS' hr)).mpr hb, rel, pts_fwd hw hS' hr⟩

theorem counts_rod {i : ℕ} (hi : i < S'.nr) : RodCounts S (β.rod i) ↔ RodCounts S' i := by
  unfold RodCounts
  rw [hw.rkind i hi]
  refine or_congr ⟨fun h => ⟨hi, h.2⟩, fun h => ⟨hw.nr i hi, h.2⟩⟩ ⟨?_, ?_⟩
  · rintro ⟨b, hb, rel, hr⟩
    obtain ⟨b', hb', hr'⟩ := hw.rodsBack i hi _ rel hr
    cases b' with
    | none => cases hb'
    | some b' =>
      cases hb'
      exact ⟨b', (counts_body hw (is_rods hS' hr')).mp hb, rel, hr'⟩
  · rintro ⟨b, hb, rel, hr⟩
    exact ⟨β.body b, (counts_body hw (is_rods hS' hr)).mpr hb, rel, rods_fwd hw hS' hr⟩

theorem onGround {i : ℕ} (hi : i < S'.nr) : OnR S none (β.rod i) ↔ OnR S' none i := by
  constructor
  · rintro ⟨rel, hr⟩
    obtain ⟨b', hb', hr'⟩ := hw.rodsBack i hi _ rel hr
    cases b' with
    | none => exact ⟨rel, hr'⟩
    | some b' => cases hb'
  · rintro ⟨rel, hr⟩
    exact ⟨rel, rods_fwd hw hS' hr⟩

omit hS'

/-- The ends of lines in connected systems, and so the lines, are where points and rods are. -/
theorem line_same (hN : ∀ i < S.nr, 0 < S.rodN i) {m m' : Mem Q FL FP FR FB} (hm : Connected S m) (hm' : Connected S' m')
    (hr : ∀ i < S'.nr, m'.rod i = m.rod (β.rod i)) (hp : ∀ i < S'.np, m'.point i = m.point (β.point i))
    (hF : ∀ k < S'.nl, (m'.line k).F = (m.line (β.line k)).F)
    (hin : ∀ k < S'.nl, ∀ j, j ≠ 0 → j ≠ S'.lineN k → ((m'.line k).s.r j, (m'.line k).s.rd j) =
      ((m.line (β.line k)).s.r j, (m.line (β.line k)).s.rd j))
    (ha : ∀ i < S'.np, ∀ a ∈ S'.ends i, a.1 < S'.nl → (tip S' a.1 (m'.line a.1) a.2).2.2.2 =
      (tip S (β.line a.1) (m.line (β.line a.1)) a.2).2.2.2)
    (k : ℕ) (hk : k < S'.nl) : m'.line k = m.line (β.line k) := by
  have key : ∀ p, tip S' k (m'.line k) p = tip S (β.line k) (m.line (β.line k)) p := by
    intro p
    obtain ⟨h, hh, hl⟩ := hw.held k hk p
    cases h with
    | point i =>
      have hi : i < S'.np := hh
      obtain ⟨d', h'⟩ := hm'.holds i hi _ hl
      obtain ⟨d, h⟩ := hm.holds _ (hw.np i hi) (β.endOf (k, p)) ((hw.ends i hi).mem_iff.mpr (List.mem_map_of_mem hl))
      have e := ha i hi _ hl hk
      dsimp only [Names.endOf] at h h' e
      rw [h', h] at e
      rw [h', h, hp i hi]
      dsimp only at e
      rw [e]
    | rodA i =>
      have hi : i < S'.nr := hh
      obtain ⟨-, -, -, g', -⟩ := hm'.rodHolds i hi
      obtain ⟨-, -, -, g, -⟩ := hm.rodHolds _ (hw.nr i hi)
      obtain ⟨d', h', e'⟩ := g' _ hl
      obtain ⟨d, h, e⟩ := g (β.endOf (k, p)) ((hw.endsA i hi).mem_iff.mpr (List.mem_map_of_mem hl))
      have hN' := hN _ (hw.nr i hi)
      have e := e hN'
      have e' := e' (by rw [hw.rodN i hi]; exact hN')
      rw [hw.mat, hw.q0 i hi, hr i hi] at e'
      dsimp only [Names.endOf] at h h' e e'
      rw [h, h', e, e', hr i hi]
      rfl
    | rodB i =>
      have hi : i < S'.nr := hh
      obtain ⟨-, -, -, -, g'⟩ := hm'.rodHolds i hi
      obtain ⟨-, -, -, -, g⟩ := hm.rodHolds _ (hw.nr i hi)
      obtain ⟨d', h', e'⟩ := g' _ hl
      obtain ⟨d, h, e⟩ := g (β.endOf (k, p)) ((hw.endsB i hi).mem_iff.mpr (List.mem_map_of_mem hl))
      have hN' := hN _ (hw.nr i hi)
      have e := e hN'
      have e' := e' (by rw [hw.rodN i hi]; exact hN')
      rw [hw.mat, hw.q0 i hi, hr i hi] at e'
      dsimp only [Names.endOf] at h h' e e'
      rw [h, h', e, e', hr i hi, hw.rodN i hi]
      rfl
  have kB := key .BOTTOM
  have kT := key .TOP
  have kF := hF k hk
  have kin := hin k hk
  rw [hw.lineN k hk] at kin
  simp only [tip, hw.lineN k hk, Prod.mk.injEq] at kB kT
  generalize m.line (β.line k) = L at *
  generalize m'.line k = L' at *
  obtain ⟨⟨r, rd, eA, eB, qA, qB⟩, F⟩ := L
  obtain ⟨⟨r', rd', eA', eB', qA', qB'⟩, F'⟩ := L'
  dsimp only at *
  obtain ⟨b1, b2, b3, b4⟩ := kB
  obtain ⟨t1, t2, t3, t4⟩ := kT
  have er : r' = r ∧ rd' = rd := by
    constructor <;>
    · funext j
      by_cases h0 : j = 0
      · subst h0; assumption
      · by_cases h1 : j = S.lineN (β.line k)
        · subst h1; assumption
        · have := kin j h0 h1
          simp only [Prod.mk.injEq] at this
          first | exact this.1 | exact this.2
  rw [er.1, er.2, b3, b4, t3, t4, kF]

include hS' in
/-- The part is connected if the whole is. -/
theorem connected_part (hl' : ∀ h : Holder, ∀ a ∈ h.list S', a.1 < S'.nl) {m m' : Mem Q FL FP FR FB} (h : SameMem β S' m m')
    (hm : Connected S m) : Connected S' m' := by
  have ht : ∀ k < S'.nl, ∀ p, tip S' k (m'.line k) p = tip S (β.line k) (m.line (β.line k)) p := by
    intro k hk p
    unfold tip
    rw [hw.lineN k hk, h.line k hk]
  refine ⟨fun b a ha => ?_, fun b a ha => ?_, fun i hi a ha => ?_, fun i hi => ?_⟩
  · have := hm.point _ _ (pts_fwd hw hS' ha)
    unfold PointOn at this ⊢
    rw [h.bodyOf (is_pts hS' ha), h.point _ (hS'.ptsNum _ a ha)]
    exact this
  · obtain ⟨h1, h2⟩ := hm.rod _ _ (rods_fwd hw hS' ha)
    have hi := hS'.rodsNum _ a ha
    unfold RodOn RodTurned at *
    rw [h.bodyOf (is_rods hS' ha), h.rod _ hi, hw.rkind _ hi, hw.between, hw.q0 _ hi]
    exact ⟨h1, h2⟩
  · obtain ⟨d, hd⟩ := hm.holds _ (hw.np i hi) (β.endOf a) ((hw.ends i hi).mem_iff.mpr (List.mem_map_of_mem ha))
    refine ⟨d, ?_⟩
    rw [ht _ (hl' (.point i) a ha), h.point i hi]
    exact hd
  · obtain ⟨h1, h2, h3, h4, h5⟩ := hm.rodHolds _ (hw.nr i hi)
    unfold RodHolds
    dsimp only
    rw [h.rod i hi, hw.rodN i hi, hw.rodLen i hi, hw.mat, hw.q0 i hi]
    refine ⟨h1, h2, h3, fun a ha => ?_, fun a ha => ?_⟩
    · obtain ⟨d, hd, hd'⟩ := h4 (β.endOf a) ((hw.endsA i hi).mem_iff.mpr (List.mem_map_of_mem ha))
      refine ⟨d, ?_, hd'⟩
      rw [ht _ (hl' (.rodA i) a ha)]
      exact hd
    · obtain ⟨d, hd, hd'⟩ := h5 (β.endOf a) ((hw.endsB i hi).mem_iff.mpr (List.mem_map_of_mem ha))
      refine ⟨d, ?_, hd'⟩
      rw [ht _ (hl' (.rodB i) a ha)]
      exact hd

/-- Related and connected. -/
def Both (β : Names) (S S' : System Q FL FP FR FB Wt) (m m' : Mem Q FL FP FR FB) : Prop :=
  SameMem β S' m m' ∧ Connected S m ∧ Connected S' m'

theorem bodyTo_same (tl : ℝ) (x : (V × Q) × (V × V)) (k : BKind) (B : Body Q FB) : bodyTo S' tl x k B = bodyTo S tl x k B := by
  unfold bodyTo
  rw [hw.mat, hw.pose]

theorem laid_same {i : ℕ} (hi : i < S'.nr) (R : Rod Q FR) : laid S' i R = laid S (β.rod i) R := by
  unfold laid
  rw [hw.mat, hw.q0 i hi, hw.rodN i hi, hw.rodLen i hi]

theorem borne_same {i : ℕ} (hi : i < S'.nr) (rel dir : V) (B : Body Q FB) (R : Rod Q FR) :
    borne S' i rel dir B R = borne S (β.rod i) rel dir B R := by
  unfold borne
  rw [hw.rkind i hi, hw.between, hw.q0 i hi]

theorem rodTo_same (tl : ℝ) (x : (V × Q) × (V × V)) (k : RKind) (R : Rod Q FR) : rodTo S' tl x k R = rodTo S tl x k R := by
  unfold rodTo
  rw [hw.pose]

include hS hS'

theorem update_same (hN : ∀ i < S.nr, 0 < S.rodN i) (hN' : ∀ i < S'.nr, 0 < S'.rodN i) (t tl : ℝ) {e e' : State Q}
    (he : SameState β S' e e') {m m' : Mem Q FL FP FR FB}
    (h : Both β S S' m m') : Both β S S' (update S t tl e m) (update S' t tl e' m') := by
  obtain ⟨h, hc, hc'⟩ := h
  have hd := C110_update hS t tl e m hc
  have hd' := C110_update hS' t tl e' m' hc'
  have s := settled hS hN t tl e m hd
  have s' := settled hS' hN' t tl e' m' hd'
  have hg : (update S' t tl e' m').ground = (update S t tl e m).ground := by
    rw [s'.ground, s.ground, bodyTo_same hw, h.ground, hw.one]
  have hb : ∀ b < S'.nb, (update S' t tl e' m').body b = (update S t tl e m).body (β.body b) := by
    intro b hb
    rw [s'.body b hb, s.body _ (hw.nb b hb), bodyTo_same hw, h.body b hb, he.body b hb, hw.bkind b hb]
  have hbo : ∀ b, Is S' b → (update S' t tl e' m').bodyOf b = (update S t tl e m).bodyOf (b.map β.body) := by
    intro b hi
    cases b with
    | none => exact hg
    | some b => exact hb b hi
  have hp : ∀ i < S'.np, (update S' t tl e' m').point i = (update S t tl e m).point (β.point i) := by
    intro i hi
    by_cases hm : PMoves S' i
    · rcases hm with ⟨-, hk⟩ | ⟨b, hm, rel, hr⟩
      · cases hk' : S'.pkind i with
        | FIXED => exact absurd hk' hk
        | FREE =>
          rw [s'.pointFree i hi hk', s.pointFree _ (hw.np i hi) (by rw [← hw.pkind i hi, hk']), h.point i hi, he.point i hi]
        | COUPLED =>
          rw [s'.pointGiven i hi hk', s.pointGiven _ (hw.np i hi) (by rw [← hw.pkind i hi, hk']), h.point i hi]
      · have g' := s'.pointOn b hm _ hr
        have g := s.pointOn _ ((moves_iff hw (is_pts hS' hr)).mpr hm) _ (pts_fwd hw hS' hr)
        dsimp only at g g'
        rw [g', g, hbo b (is_pts hS' hr), h.point i hi]
    · rw [s'.pointStays i hm, s.pointStays _ (fun h => hm ((pmoves_iff hw hS' hi).mp h)), h.point i hi]
  have hr : ∀ i < S'.nr, (update S' t tl e' m').rod i = (update S t tl e m).rod (β.rod i) := by
    intro i hi
    by_cases hm : ∃ b, Moves S' b ∧ ∃ rel, (i, rel) ∈ S'.rods b
    · obtain ⟨b, hm, rel, hr⟩ := hm
      have g' := s'.rodOn b hm _ hr
      have g := s.rodOn _ ((moves_iff hw (is_rods hS' hr)).mpr hm) _ (rods_fwd hw hS' hr)
      dsimp only at g g'
      rw [g', g, hbo b (is_rods hS' hr), laid_same hw hi, rodTo_same hw, borne_same hw hi, h.rod i hi, he.rod i hi, hw.rkind i hi]
    · have hm' := fun h => hm ((moved_rod hw hS' hi).mp h)
      by_cases hk : S'.rkind i = .FIXED
      · have n' : ¬ RMoves S' i := by
          rintro (⟨-, h⟩ | h)
          · exact h hk
          · exact hm h
        rw [s'.rodStays i n', s.rodStays _ (fun h => n' ((rmoves_iff hw hS' hi).mp h)), h.rod i hi]
      · rw [s'.rodAlone i hi hk hm, s.rodAlone _ (hw.nr i hi) (by rw [← hw.rkind i hi]; exact hk) hm', laid_same hw hi, rodTo_same hw,
          h.rod i hi, he.rod i hi, hw.rkind i hi]
  refine ⟨⟨?_, hg, hb, hr, hp, ?_⟩, hd, hd'⟩
  · rw [s'.time, s.time]
  · refine line_same hw hN hd hd' hr hp (fun k hk => ?_) (fun k hk j h0 h1 => ?_) (fun i hi a ha hk => ?_)
    · rw [s'.force, s.force, h.line k hk]
    · rw [s'.inner k j h0 h1, s.inner (β.line k) j h0 (by rw [← hw.lineN k hk]; exact h1), h.line k hk, he.line k hk, hw.lineN k hk]
      simp only [hk, hw.nl k hk, true_and]
    · rw [s'.aim i a ha]
      have := s.aim (β.point i) (β.endOf a) ((hw.ends i hi).mem_iff.mpr (List.mem_map_of_mem ha))
      dsimp only [Names.endOf] at this
      rw [this, h.line _ hk]
      unfold tip
      rw [hw.lineN _ hk]

theorem lineNow_same {m m' : Mem Q FL FP FR FB} (h : SameMem β S' m m') {k : ℕ} (hk : k < S'.nl) :
    lineNow S' m' k = lineNow S m (β.line k) := by
  unfold lineNow
  rw [hw.lineF k hk, hw.sea, h.t, h.line k hk]

theorem pullNow_same {m m' : Mem Q FL FP FR FB} (h : SameMem β S' m m') {l l' : List (ℕ × EndPt)} (hl : ∀ a ∈ l', a.1 < S'.nl)
    (hp : l.Perm (l'.map β.endOf)) : (pullNow S m l).Perm (pullNow S' m' l') := by
  unfold pullNow
  refine (hp.map _).trans (List.Perm.of_eq ?_)
  rw [List.map_map]
  refine List.map_congr_left fun a ha => ?_
  rw [lineNow_same hw hS hS' h (hl a ha)]
  rfl

theorem pointNow_same (hl' : ∀ h : Holder, ∀ a ∈ h.list S', a.1 < S'.nl) {m m' : Mem Q FL FP FR FB} (h : SameMem β S' m m') {i : ℕ}
    (hi : i < S'.np) : pointNow S' m' i = pointNow S m (β.point i) := by
  unfold pointNow
  rw [hw.pointF i hi _ _ _ _ _ (pullNow_same (l' := S'.ends i) hw hS hS' h (hl' (.point i)) (hw.ends i hi)), h.point i hi, hw.sea, h.t]

theorem rodNow_same (hl' : ∀ h : Holder, ∀ a ∈ h.list S', a.1 < S'.nl) {m m' : Mem Q FL FP FR FB} (h : SameMem β S' m m') {i : ℕ}
    (hi : i < S'.nr) (x : ℕ → V) : rodNow S' m' x i = rodNow S m x (β.rod i) := by
  unfold rodNow
  rw [hw.rodF i hi _ _ _ _ _ _ _ _ _ _ (pullNow_same (l' := S'.endsA i) hw hS hS' h (hl' (.rodA i)) (hw.endsA i hi))
    (pullNow_same (l' := S'.endsB i) hw hS hS' h (hl' (.rodB i)) (hw.endsB i hi)), h.rod i hi, hw.sea, h.t, hw.rodN i hi]

theorem bodyNow_same (hl' : ∀ h : Holder, ∀ a ∈ h.list S', a.1 < S'.nl) {m m' : Mem Q FL FP FR FB} (h : SameMem β S' m m') {b : ℕ}
    (hb : b < S'.nb) : bodyNow S' m' (fun i => (m'.rod i).r) b = bodyNow S m (fun i => (m.rod i).r) (β.body b) := by
  unfold bodyNow
  dsimp only
  rw [h.body b hb, hw.sea, h.t]
  refine hw.bodyF b hb _ _ _ _ _ _ _ _ _ _ ?_ ?_
  · refine ((hw.pts b hb).map _).trans (List.Perm.of_eq ?_)
    rw [List.map_map]
    refine List.map_congr_left fun a ha => ?_
    have hi := hS'.ptsNum _ a ha
    rw [pointNow_same hw hS hS' hl' h hi, h.point _ hi]
    rfl
  · refine ((hw.rods b hb).map _).trans (List.Perm.of_eq ?_)
    rw [List.map_map]
    refine List.map_congr_left fun a ha => ?_
    have hi := hS'.rodsNum _ a ha
    rw [rodNow_same hw hS hS' hl' h hi, h.rod _ hi]
    rfl

theorem evaluate_same (hN : ∀ i < S.nr, 0 < S.rodN i) (hN' : ∀ i < S'.nr, 0 < S'.rodN i)
    (hl : ∀ h : Holder, ∀ a ∈ h.list S, a.1 < S.nl) (hl' : ∀ h : Holder, ∀ a ∈ h.list S', a.1 < S'.nl) {m m' : Mem Q FL FP FR FB}
    (h : Both β S S' m m') : Both β S S' (evaluate S m) (evaluate S' m') := by
  obtain ⟨h, hc, hc'⟩ := h
  have hd := C110_forces hS m hc
  have hd' := C110_forces hS' m' hc'
  obtain ⟨g1, g2⟩ := valued_rest hl m
  obtain ⟨g1', g2'⟩ := valued_rest hl' m'
  have hb : ∀ b < S'.nb, (evaluate S' m').body b = (evaluate S m).body (β.body b) := by
    intro b hb
    by_cases hk : BodyCounts S' b
    · rw [(valued_body hl' m' b).1 hk, (valued_body hl m _).1 ((counts_body hw hb).mpr hk), h.body b hb, bodyNow_same hw hS hS' hl' h hb]
    · rw [(valued_body hl' m' b).2 hk, (valued_body hl m _).2 (fun h => hk ((counts_body hw hb).mp h)), h.body b hb]
  have hp : ∀ i < S'.np, (evaluate S' m').point i = (evaluate S m).point (β.point i) := by
    intro i hi
    by_cases hk : PointCounts S' i
    · rw [(valued_point hS' hl' m' hc' i).1 hk, (valued_point hS hl m hc _).1 ((counts_point hw hS' hi).mpr hk), h.point i hi,
        pointNow_same hw hS hS' hl' h hi]
    · rw [(valued_point hS' hl' m' hc' i).2 hk, (valued_point hS hl m hc _).2 (fun h => hk ((counts_point hw hS' hi).mp h)), h.point i hi]
  have hr : ∀ i < S'.nr, (evaluate S' m').rod i = (evaluate S m).rod (β.rod i) := by
    intro i hi
    have v' := valued_rod hS' hN' hl' m' hc' i hi
    have v := valued_rod hS hN hl m hc _ (hw.nr i hi)
    have e := h.rod i hi
    have q : ((evaluate S' m').rod i).q = ((evaluate S m).rod (β.rod i)).q := by
      by_cases ho : OnR S' none i
      · rw [v'.q' ho, v.q' ((onGround hw hS' hi).mpr ho), e, hw.mat, hw.q0 i hi]
      · rw [v'.q ho, v.q (fun h => ho ((onGround hw hS' hi).mp h)), e]
    have f : ((evaluate S' m').rod i).r = ((evaluate S m).rod (β.rod i)).r ∧
        ((evaluate S' m').rod i).rd = ((evaluate S m).rod (β.rod i)).rd ∧
        ((evaluate S' m').rod i).F = ((evaluate S m).rod (β.rod i)).F := by
      by_cases hk : RodCounts S' i
      · obtain ⟨a1, a2, a3⟩ := v'.r hk
        obtain ⟨b1, b2, b3⟩ := v.r ((counts_rod hw hS' hi).mpr hk)
        rw [a1, a2, a3, b1, b2, b3, rodNow_same hw hS hS' hl' h hi, e, hw.rodN i hi]
        exact ⟨rfl, rfl, rfl⟩
      · obtain ⟨a1, a2, a3⟩ := v'.r' hk
        obtain ⟨b1, b2, b3⟩ := v.r' (fun h => hk ((counts_rod hw hS' hi).mp h))
        rw [a1, a2, a3, b1, b2, b3, e]
        exact ⟨rfl, rfl, rfl⟩
    have c1 := v'.pos.trans ((congrArg Rod.pos e).trans v.pos.symm)
    have c2 := v'.quat.trans ((congrArg Rod.quat e).trans v.quat.symm)
    have c3 := v'.vel.trans ((congrArg Rod.vel e).trans v.vel.symm)
    have c4 := v'.w.trans ((congrArg Rod.w e).trans v.w.symm)
    have c5 := v'.ves.trans ((congrArg Rod.ves e).trans v.ves.symm)
    have c6 : ((evaluate S' m').rod i).acc = ((evaluate S m).rod (β.rod i)).acc := by rw [v'.acc, v.acc, e, hw.rkind i hi]
    clear v v'
    generalize (evaluate S' m').rod i = R' at *
    generalize (evaluate S m).rod (β.rod i) = R at *
    obtain ⟨f1, f2, f3⟩ := f
    cases R
    cases R'
    dsimp only at *
    rw [c1, c2, c3, c4, c5, c6, q, f1, f2, f3]
  obtain ⟨l1, l2, l3⟩ := valued_line hS hl m
  obtain ⟨l1', l2', l3'⟩ := valued_line hS' hl' m'
  refine ⟨⟨by rw [g2, g2', h.t], by rw [g1, g1', h.ground], hb, hr, hp, ?_⟩, hd, hd'⟩
  refine line_same hw hN hd hd' hr hp (fun k hk => ?_) (fun k hk j h0 h1 => ?_) (fun i hi a ha hk => ?_)
  · rw [l1' k hk, l1 _ (hw.nl k hk), lineNow_same hw hS hS' h hk]
  · obtain ⟨a1, a2⟩ := l2' k j h0 h1
    obtain ⟨b1, b2⟩ := l2 (β.line k) j h0 (by rw [← hw.lineN k hk]; exact h1)
    rw [a1, a2, b1, b2, h.line k hk]
  · rw [l3' i a ha]
    have := l3 (β.point i) (β.endOf a) ((hw.ends i hi).mem_iff.mpr (List.mem_map_of_mem ha))
    dsimp only [Names.endOf] at this
    rw [this, h.line _ hk]
    unfold tip
    rw [hw.lineN _ hk]

theorem initiate_same (hN : ∀ i < S.nr, 0 < S.rodN i) (hN' : ∀ i < S'.nr, 0 < S'.rodN i) {x x' : Asked} (hx : SameAsked β S' x x')
    {m m' : Mem Q FL FP FR FB} (h : Both β S S' m m') : Both β S S' (initiate S x m) (initiate S' x' m') := by
  obtain ⟨h, hc, hc'⟩ := h
  have hd := C110_given hS x m hc
  have hd' := C110_given hS' x' m' hc'
  have hb : ∀ b < S'.nb, (initiate S' x' m').body b = (initiate S x m).body (β.body b) := by
    intro b hb
    rw [initiate_body _ _ _ hb, initiate_body _ _ _ (hw.nb b hb), hw.bkind b hb, hx.dt, hx.body b hb, h.body b hb]
  have hp : ∀ i < S'.np, (initiate S' x' m').point i = (initiate S x m).point (β.point i) := by
    intro i hi
    rw [initiate_point _ _ _ hi, initiate_point _ _ _ (hw.np i hi), hw.pkind i hi, hx.point i hi, h.point i hi]
  have hr : ∀ i < S'.nr, (initiate S' x' m').rod i = (initiate S x m).rod (β.rod i) := by
    intro i hi
    rw [initiate_rod _ _ _ hi (hN' i hi), initiate_rod _ _ _ (hw.nr i hi) (hN _ (hw.nr i hi)), hx.dt, hx.rod i hi, h.rod i hi]
    unfold rodGiven
    rw [hw.rkind i hi, laid_same hw hi]
  have d := initiate_line hS x m
  have d' := initiate_line hS' x' m'
  simp only [deep, Prod.mk.injEq] at d d'
  obtain ⟨d1, d2, d3⟩ := d
  obtain ⟨d1', d2', d3'⟩ := d'
  refine ⟨⟨by rw [(initiate_rest x m).2, (initiate_rest x' m').2, h.t], by rw [(initiate_rest x m).1, (initiate_rest x' m').1, h.ground],
    hb, hr, hp, ?_⟩, hd, hd'⟩
  refine line_same hw hN hd hd' hr hp (fun k hk => ?_) (fun k hk j h0 h1 => ?_) (fun i hi a ha hk => ?_)
  · exact (congrFun d1' k).trans ((congrArg Line.F (h.line k hk)).trans (congrFun d1 (β.line k)).symm)
  · have a1 := congrFun (congrFun d2' k) ⟨j, h0, h1⟩
    have b1 := congrFun (congrFun d2 (β.line k)) ⟨j, h0, by rw [← hw.lineN k hk]; exact h1⟩
    refine a1.trans (Eq.trans ?_ b1.symm)
    dsimp only
    rw [h.line k hk]
  · have a1 := congrFun d3' ⟨a, i, ha⟩
    have b1 := congrFun d3 ⟨β.endOf a, β.point i, (hw.ends i hi).mem_iff.mpr (List.mem_map_of_mem ha)⟩
    refine a1.trans (Eq.trans ?_ b1.symm)
    dsimp only [Names.endOf]
    rw [h.line _ hk]
    unfold tip
    rw [hw.lineN _ hk]

theorem rates_same [Zero Q] (hl : ∀ h : Holder, ∀ a ∈ h.list S, a.1 < S.nl) {o o' m m' : Mem Q FL FP FR FB} (ho : SameMem β S' o o')
    (h : SameMem β S' m m') : SameState β S' (rates S o m) (rates S' o' m') := by
  refine ⟨fun k hk => ?_, fun i hi => ?_, fun i hi => ?_, fun b hb => ?_⟩
  · funext j
    simp only [rates, hk, hw.nl k hk, true_and, hw.lineN k hk, ho.line k hk, hw.lineF k hk, hw.sea, ho.t]
  · simp only [rates, hi, hw.np i hi, true_and, hw.pkind i hi, h.point i hi, hw.pointA]
  · simp only [rates, hi, hw.nr i hi, if_true, hw.rkind i hi, h.rod i hi, ho.rod i hi, hw.rodA, hw.pinA, hw.quatA]
  · simp only [rates, hb, hw.nb b hb, if_true, hw.bkind b hb, h.body b hb, hw.bodyA, hw.bodyPinA, hw.quatA]

theorem machine_same [AddCommGroup Q] [Module ℝ Q] (hN : ∀ i < S.nr, 0 < S.rodN i) (hN' : ∀ i < S'.nr, 0 < S'.rodN i)
    (hl : ∀ h : Holder, ∀ a ∈ h.list S, a.1 < S.nl) (hl' : ∀ h : Holder, ∀ a ∈ h.list S', a.1 < S'.nl) :
    Relate.Alike (1 : ℝ) (fun _ => True) (machine S) (machine S') (SameState β S') (SameState β S') (Both β S S') where
  zero := ⟨fun _ _ => rfl, fun _ _ => rfl, fun _ _ => rfl, fun _ _ => rfl⟩
  add a a' b b' ha hb := ⟨fun i hi => by simp [ha.1 i hi, hb.1 i hi], fun i hi => by simp [ha.2 i hi, hb.2 i hi],
    fun i hi => by simp [ha.3 i hi, hb.3 i hi], fun i hi => by simp [ha.4 i hi, hb.4 i hi]⟩
  smul x a a' ha := ⟨fun i hi => by simp [ha.1 i hi], fun i hi => by simp [ha.2 i hi],
    fun i hi => by simp [ha.3 i hi], fun i hi => by simp [ha.4 i hi]⟩
  move x a a' b b' ha hb := ⟨fun i hi => by simp [ha.1 i hi, hb.1 i hi], fun i hi => by simp [ha.2 i hi, hb.2 i hi],
    fun i hi => by simp [ha.3 i hi, hb.3 i hi], fun i hi => by simp [ha.4 i hi, hb.4 i hi]⟩
  update t tl e e' m m' he h := by
    rw [one_mul, one_mul]
    exact update_same hw hS hS' hN hN' t tl he h
  rate m m' h _ := rates_same hw hS hS' hl h.1 (evaluate_same hw hS hS' hN hN' hl hl' h).1
  eval m m' h _ := evaluate_same hw hS hS' hN hN' hl hl' h
  next m m' h := h
  okU _ _ _ _ _ := trivial
  okE _ _ := trivial
  okN _ _ := trivial

omit hw hS hS'

theorem aux_same [AddCommGroup Q] [Module ℝ Q] (E : Each Q) (conv conv' : State Q × State Q → State Q × State Q → Bool) {fr fr' : Fresh}
    (hf : SameFresh β S' fr fr') :
    Relate.AuxAlike (1 : ℝ) (E.aux conv fr) (E.aux conv' fr') (SameState β S') (SameState β S') := by
  refine ⟨fun _ _ => rfl, ?_, ?_, ?_, ?_⟩
  · intro ga be a a' b b' h ha hb
    refine ⟨fun i hi => ?_, fun i hi => ?_, fun i hi => ?_, fun i hi => ?_⟩
    · simp only [Each.aux, one_mul, ha.1 i hi, hb.1 i hi]
    · simp only [Each.aux, one_mul, ha.2 i hi, hb.2 i hi]
    · simp only [Each.aux, one_mul, ha.3 i hi, hb.3 i hi]
    · simp only [Each.aux, one_mul, ha.4 i hi, hb.4 i hi]
  · intro a a' b b' ta h ha hb
    refine ⟨fun i hi => ?_, fun i hi => ?_, fun i hi => ?_, fun i hi => ?_⟩
    · simp only [Each.aux, one_mul, ha.1 i hi, hb.1 i hi]
    · simp only [Each.aux, one_mul, ha.2 i hi, hb.2 i hi]
    · simp only [Each.aux, one_mul, ha.3 i hi, hb.3 i hi]
    · simp only [Each.aux, one_mul, ha.4 i hi, hb.4 i hi]
  · intro a a' b b' ha hb
    refine ⟨fun i hi => ?_, fun i hi => ?_, fun i hi => ?_, fun i hi => ?_⟩
    · simp only [Each.aux, hf.1 i hi, ha.1 i hi, hb.1 i hi]
    · simp only [Each.aux, hf.2 i hi, ha.2 i hi, hb.2 i hi]
    · simp only [Each.aux, hf.3 i hi, ha.3 i hi, hb.3 i hi]
    · simp only [Each.aux, hf.4 i hi, ha.4 i hi, hb.4 i hi]
  · intro x a a' b b' ha hb
    refine ⟨fun i hi => ?_, fun i hi => ?_, fun i hi => ?_, fun i hi => ?_⟩
    · simp [Each.aux, ha.1 i hi, hb.1 i hi]
    · simp [Each.aux, ha.2 i hi, hb.2 i hi]
    · simp [Each.aux, ha.3 i hi, hb.3 i hi]
    · simp [Each.aux, ha.4 i hi, hb.4 i hi]

end

end MD.Whole
