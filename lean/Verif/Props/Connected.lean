import Verif.Lemmas.Connected
import Verif.Lemmas.Relate

/-!
# C110: what is connected stays connected
-/

set_option linter.unusedSimpArgs false
set_option linter.unusedSectionVars false
set_option linter.unusedVariables false
set_option linter.unnecessarySeqFocus false

namespace MD.Whole

open MD.Mooring Matrix
open MD.Moored (Kind)

variable {Q FL FP FR FB Wt : Type} {S : System Q FL FP FR FB Wt}

/-- Telling the objects a time and a state leaves everything connected: the points and rods on their bodies, the lines at their points
and rods, whatever the state is. -/
theorem C110_update (hS : Sound S) (t tl : ℝ) (e : State Q) (m : Mem Q FL FP FR FB) (hm : Connected S m) :
    Connected S (update S t tl e m) where
  point b a ha := (update_P hS t tl e m b a ha (.inr ⟨hm.point b a ha, hm.holds _ (hS.ptsNum b a ha)⟩)).1
  rod b a ha :=
    have h := update_R hS t tl e m b a ha
      (.inr ⟨(hm.rod b a ha).1, fun hk => ⟨(hm.rod b a ha).2 hk, hm.rodHolds _ (hS.rodsNum b a ha)⟩⟩)
    ⟨h.1, fun hk => (h.2 hk).1⟩
  holds i hi := update_holds hS t tl e m i hi fun _ => .inr (hm.holds i hi)
  rodHolds i hi := update_rodHolds hS t tl e m i hi fun _ => .inr (hm.rodHolds i hi)

/-- Computing the forces leaves everything connected. -/
theorem C110_forces (hS : Sound S) (m : Mem Q FL FP FR FB) (hm : Connected S m) : Connected S (evaluate S m) := by
  obtain ⟨f, hf, he⟩ := evaluate_passes S m
  rw [he]
  exact passBody_connected hS none (f m) (hf.connected hS hm)

/-- The loop of `MoorDyn::Init` over the fixed bodies, and one `Update`, put everything in its place, whatever was in memory: if each
point and rod of the kind FIXED is on a body or on the ground. -/
theorem C110_start (hS : Sound S) (hP : ∀ i < S.np, S.pkind i = .FIXED → ∃ b rel, (i, rel) ∈ S.pts b)
    (hR : ∀ i < S.nr, S.rkind i = .FIXED → ∃ b rel, (i, rel) ∈ S.rods b) (x : ℕ → V × V) (t tl : ℝ) (e : State Q)
    (m : Mem Q FL FP FR FB) : Connected S (update S t tl e (fixBodies S x m)) := by
  have fP : ∀ b, ∀ a ∈ S.pts b, Live S b ∨ FactP S b a (fixBodies S x m) := by
    intro b a ha
    cases b with
    | none => exact .inl trivial
    | some b =>
      by_cases hk : S.bkind b = .FIXED
      · right
        refine foldl_sets _ _ (List.mem_range.mpr (hS.bodyNum b (.inl ⟨a, ha⟩))) (fun m => ?_) (fun c _ => ?_) m
        · simp only [fixBody, if_pos hk]
          exact place_P hS _ _ a ha _ (Function.update_self _ _ _)
        · by_cases hcb : c = b
          · exact .inl hcb
          · refine .inr fun m hm => ((only_fixBody hS x c).keepP hS ?_ ?_ m).mpr hm
            · exact fun h => hcb (Option.some.inj (onP_unique hS ha h)).symm
            · exact fun h => hcb (Option.some.inj h).symm
      · exact .inl hk
  have fR : ∀ b, ∀ a ∈ S.rods b, Live S b ∨ FactR S b a (fixBodies S x m) := by
    intro b a ha
    cases b with
    | none => exact .inl trivial
    | some b =>
      by_cases hk : S.bkind b = .FIXED
      · right
        refine foldl_sets _ _ (List.mem_range.mpr (hS.bodyNum b (.inr ⟨a, ha⟩))) (fun m => ?_) (fun c _ => ?_) m
        · simp only [fixBody, if_pos hk]
          exact place_R hS _ _ a ha _ (Function.update_self _ _ _)
        · by_cases hcb : c = b
          · exact .inl hcb
          · refine .inr fun m hm => ((only_fixBody hS x c).keepR hS ?_ ?_ m).mpr hm
            · exact fun h => hcb (Option.some.inj (onR_unique hS ha h)).symm
            · exact fun h => hcb (Option.some.inj h).symm
      · exact .inl hk
  constructor
  · exact fun b a ha => (update_P hS t tl e _ b a ha (fP b a ha)).1
  · exact fun b a ha => ⟨(update_R hS t tl e _ b a ha (fR b a ha)).1,
      fun hk => ((update_R hS t tl e _ b a ha (fR b a ha)).2 hk).1⟩
  · intro i hi
    refine update_holds hS t tl e _ i hi fun hk => ?_
    obtain ⟨b, rel, hb⟩ := hP i hi hk
    rcases fP b _ hb with h | h
    · exact .inl ⟨b, ⟨rel, hb⟩, h⟩
    · exact .inr h.2
  · intro i hi
    refine update_rodHolds hS t tl e _ i hi fun hk => ?_
    obtain ⟨b, rel, hb⟩ := hR i hi hk
    rcases fR b _ hb with h | h
    · exact .inl ⟨b, ⟨rel, hb⟩, h⟩
    · exact .inr (h.2 hk).2

/-- What the program is given in a call leaves everything connected. -/
theorem C110_given (hS : Sound S) (x : Asked) (m : Mem Q FL FP FR FB) (hm : Connected S m) : Connected S (initiate S x m) := by
  unfold initiate
  dsimp only
  have hb : Only S (fun _ => False) (fun _ => False) (fun _ => False)
      (fun m : Mem Q FL FP FR FB => (List.range S.nb).foldl (initBody S x.dt x.body) m) :=
    Only.foldl _ _ fun b _ => only_initBody _ _ b
  have hp : Only S (fun _ => False) (fun _ => False) (fun _ => False)
      (fun m : Mem Q FL FP FR FB => (List.range S.np).foldl (initPoint S x.point) m) :=
    Only.foldl _ _ fun b _ => only_initPoint _ b
  refine hp.connected hS ?_
  have := hb.connected hS hm
  generalize (List.range S.nb).foldl (initBody S x.dt x.body) m = m' at this
  generalize List.range S.nr = l
  induction l generalizing m' with
  | nil => exact this
  | cons i l ih => exact ih _ (connected_initRod hS _ _ i this)

/-- Any number of calls with whatever is given, in any scheme, leave everything connected. -/
theorem C110_simulation [AddCommGroup Q] [Module ℝ Q] (hS : Sound S) (ax : Time.Aux ℝ (State Q)) (sc : Time.Scheme ℝ) (dtM0 : ℝ)
    (fuel : ℕ) (calls : List Asked) (s e : Time.Sim ℝ (State Q) (Mem Q FL FP FR FB)) (hs : Connected S s.m)
    (he : calls.foldlM (call S ax sc dtM0 fuel) s = some e) : Connected S e.m := by
  have hm : Relate.Remembers (fun m => ¬ Connected S m) (machine S) :=
    ⟨fun t tl e m h hc => h (C110_update hS t tl e m hc), fun m h hc => h (C110_forces hS m hc), fun m h => h⟩
  induction calls generalizing s with
  | nil =>
    cases he
    exact hs
  | cons x calls ih =>
    rw [List.foldlM_cons] at he
    cases h1 : call S ax sc dtM0 fuel s x with
    | none => rw [h1] at he; cases he
    | some e1 =>
      rw [h1] at he
      refine ih e1 ?_ he
      unfold call at h1
      split_ifs at h1 with h0
      · cases h1
        exact hs
      · split at h1
        · rename_i hr
          cases h1
          by_contra hc
          exact Relate.call_ok hm ax sc dtM0 fuel _ { s with m := initiate S x s.m } _ _ hr hc (C110_given hS x _ hs)
        · cases h1

/-- Two points on a body keep their distance. -/
theorem C110_rigid (m : Mem Q FL FP FR FB) (hm : Connected S m) (b : Option ℕ)
    (hB : (m.bodyOf b).orMatᵀ * (m.bodyOf b).orMat = 1) (a a' : ℕ × V) (ha : a ∈ S.pts b) (ha' : a' ∈ S.pts b) :
    ((m.point a.1).r - (m.point a'.1).r) ⬝ᵥ ((m.point a.1).r - (m.point a'.1).r) = (a.2 - a'.2) ⬝ᵥ (a.2 - a'.2) := by
  rw [(hm.point b a ha).1, (hm.point b a' ha').1]
  rw [add_sub_add_left_eq_sub, ← mulVec_sub, dotProduct_mulVec, vecMul_mulVec, ← dotProduct_mulVec, hB, one_mulVec]

/-- The ends of a rod keep their distance. -/
theorem C110_length (m : Mem Q FL FP FR FB) (hm : Connected S m) (i : ℕ) (hi : i < S.nr) (hN : 0 < S.rodN i)
    (hB : (S.mat (m.rod i).quat)ᵀ * S.mat (m.rod i).quat = 1) (hq : S.q0 i ⬝ᵥ S.q0 i = 1) :
    ((m.rod i).r (S.rodN i) - (m.rod i).r 0) ⬝ᵥ ((m.rod i).r (S.rodN i) - (m.rod i).r 0) = S.rodLen i ^ 2 := by
  obtain ⟨h1, -, h2, -⟩ := hm.rodHolds i hi
  rw [(h2 hN).1, h1, add_sub_cancel_left, smul_dotProduct, dotProduct_smul, dotProduct_mulVec, vecMul_mulVec,
    ← dotProduct_mulVec, hB, one_mulVec, hq]
  simp [sq]

/-! ## A case

A free body with a point on it and a rod pinned to it, an anchor, a coupled point; a line from the anchor to the point on the
body, a line from the lower end of the rod to the coupled point.  Bodies and rods turn about the vertical. -/

noncomputable def hung : System ℝ Unit Unit Unit Unit Unit where
  nb := 1
  nr := 1
  np := 3
  nl := 2
  bkind _ := .FREE
  rkind _ := .PINNED
  pkind i := if i = 2 then .COUPLED else .FIXED
  pts
    | none => [(1, ![10, 0, -50])]
    | some 0 => [(0, ![1, 0, 0])]
    | some _ => []
  rods
    | some 0 => [(0, ![0, 0, -1], ![0, 0, -1])]
    | _ => []
  ends
    | 0 => [(0, .TOP)]
    | 1 => [(0, .BOTTOM)]
    | 2 => [(1, .TOP)]
    | _ => []
  endsA _ := []
  endsB
    | 0 => [(1, .BOTTOM)]
    | _ => []
  rodN _ := 2
  rodLen _ := 5
  q0 _ := ![1, 0, 0]
  lineN _ := 3
  mat a := !![Real.cos a, -Real.sin a, 0; Real.sin a, Real.cos a, 0; 0, 0, 1]
  pose x := (x.1, x.2 2)
  between _ _ := 0
  one := 0
  sea _ _ := ()
  moment _ _ _ _ _ := 0
  unit v := v
  lineF _ _ _ := (fun _ => ![0, 0, -9.8], ())
  pointF _ _ _ _ _ := ()
  pointA _ := 0
  rodF _ _ _ _ _ _ _ _ _ := ()
  rodA _ := 0
  pinA _ _ := ![0, 0, 1]
  quatA w _ := w 2
  bodyF _ _ _ _ _ _ _ _ _ := ()
  bodyA _ := (![0, 0, 1], 0)
  bodyPinA _ _ := 0

theorem hung_sound : Sound hung where
  once := by
    intro h h' a ha ha'
    rcases h with (_ | _ | _ | i) | i | (_ | i) <;> rcases h' with (_ | _ | _ | j) | j | (_ | j) <;>
      simp [Holder.list, hung] at ha ha' ⊢ <;> simp_all
  lineN _ := by simp [hung]
  pts := by
    intro b b' a ha a' ha' h
    rcases b with _ | _ | b <;> rcases b' with _ | _ | b' <;> simp [hung] at ha ha' ⊢ <;> simp_all
  rods := by
    intro b b' a ha a' ha' h
    rcases b with _ | _ | b <;> rcases b' with _ | _ | b' <;> simp [hung] at ha ha' ⊢ <;> simp_all
  ptsKind := by
    intro b a ha
    rcases b with _ | _ | b <;> simp [hung] at ha ⊢ <;> simp_all
  rodsKind _ _ _ := .inr rfl
  rodsNum := by
    intro b a ha
    rcases b with _ | _ | b <;> simp [hung] at ha ⊢ <;> simp_all
  ptsNum := by
    intro b a ha
    rcases b with _ | _ | b <;> simp [hung] at ha ⊢ <;> simp_all
  bodyNum := by
    intro b h
    rcases b with _ | b <;> simp [hung] at h ⊢

/-- Whatever was in memory, everything is connected after the first `Update`, and stays so in all simulations. -/
example (t tl : ℝ) (e : State ℝ) (m : Mem ℝ Unit Unit Unit Unit) (ax : Time.Aux ℝ (State ℝ)) (sc : Time.Scheme ℝ) (dtM0 : ℝ)
    (fuel : ℕ) (calls : List Asked) (s s' : Time.Sim ℝ (State ℝ) (Mem ℝ Unit Unit Unit Unit)) (hs : s.m = update hung t tl e m)
    (he : calls.foldlM (call hung ax sc dtM0 fuel) s = some s') : Connected hung s'.m := by
  refine C110_simulation hung_sound ax sc dtM0 fuel calls s s' ?_ he
  have h := C110_start hung_sound (fun i hi hk => ?_) (fun i _ hk => ?_) (fun _ => 0) t tl e m
  · rw [hs]
    simpa [fixBodies, fixBody, hung] using h
  · have hi' : i = 0 ∨ i = 1 ∨ i = 2 := by
      have : i < 3 := hi
      omega
    rcases hi' with rfl | rfl | rfl
    · exact ⟨some 0, _, List.mem_singleton.mpr rfl⟩
    · exact ⟨none, _, List.mem_singleton.mpr rfl⟩
    · simp [hung] at hk
  · simp [hung] at hk

/-- The point on the body is at the end of its line, one metre from the place of the body. -/
example (m : Mem ℝ Unit Unit Unit Unit) (h : Connected hung m) : (m.line 0).s.r 3 = (m.point 0).r ∧
    (m.point 0).r = (m.body 0).pos + (m.body 0).orMat *ᵥ ![1, 0, 0] := by
  obtain ⟨d, hd⟩ := h.holds 0 (by simp [hung]) (0, .TOP) (by simp [hung])
  exact ⟨congrArg Prod.fst hd, (h.point (some 0) (0, ![1, 0, 0]) (by simp [hung])).1⟩

end MD.Whole
