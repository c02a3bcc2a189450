import Verif.Spec.Settled
import Verif.Lemmas.WholeForces

/-!
# `Update` puts things where they belong, object by object
-/

set_option linter.unusedSimpArgs false
set_option linter.unusedSectionVars false
set_option linter.unusedVariables false
set_option linter.unnecessarySeqFocus false

namespace MD.Whole

open MD.Mooring Matrix
open MD.Moored (Kind)

variable {Q FL FP FR FB Wt : Type} {S : System Q FL FP FR FB Wt}

/-- A loop in which one step sets a value from what the other steps leave alone. -/
theorem foldl_once {α W D : Type} (F : Mem Q FL FP FR FB → α → Mem Q FL FP FR FB) (l : List α) (hn : l.Nodup) {a : α} (ha : a ∈ l)
    (view : Mem Q FL FP FR FB → W) (dep : Mem Q FL FP FR FB → D) (g : D → W) (hset : ∀ m, view (F m a) = g (dep m))
    (hdep : ∀ c ∈ l, c ≠ a → ∀ m, dep (F m c) = dep m) (hview : ∀ c ∈ l, c ≠ a → ∀ m, view (F m c) = view m)
    (m : Mem Q FL FP FR FB) : view (l.foldl F m) = g (dep m) := by
  induction l generalizing m with
  | nil => cases ha
  | cons c l ih =>
    rw [List.foldl_cons]
    obtain ⟨hc, hn⟩ := List.nodup_cons.mp hn
    by_cases h : c = a
    · subst h
      rw [foldl_same view F l fun m b hb => hview b (List.mem_cons_of_mem _ hb) (fun h => hc (h ▸ hb)) m]
      exact hset m
    · rw [ih hn ((List.mem_cons.mp ha).resolve_left fun h' => h h'.symm) (fun b hb => hdep b (List.mem_cons_of_mem _ hb))
        (fun b hb => hview b (List.mem_cons_of_mem _ hb)), hdep c List.mem_cons_self h]

/-- A loop in which a value is set, perhaps more than once, from what stays. -/
theorem foldl_again {α W D : Type} (F : Mem Q FL FP FR FB → α → Mem Q FL FP FR FB) (l : List α) {a : α} (ha : a ∈ l)
    (view : Mem Q FL FP FR FB → W) (dep : Mem Q FL FP FR FB → D) (g : D → W) (hset : ∀ m, view (F m a) = g (dep m))
    (hdep : ∀ c ∈ l, ∀ m, dep (F m c) = dep m) (hview : ∀ c ∈ l, c = a ∨ ∀ m, view (F m c) = view m)
    (m : Mem Q FL FP FR FB) : view (l.foldl F m) = g (dep m) := by
  have key : ∀ (l' : List α), (∀ c ∈ l', c ∈ l) → ∀ m' : Mem Q FL FP FR FB, dep m' = dep m → (view m' = g (dep m) ∨ a ∈ l') →
      view (l'.foldl F m') = g (dep m) := by
    intro l'
    induction l' with
    | nil =>
      rintro - m' - (h | h)
      · exact h
      · cases h
    | cons c l' ih =>
      intro hl m' hd h
      have hc := hl c List.mem_cons_self
      refine ih (fun c hc => hl c (List.mem_cons_of_mem _ hc)) _ ((hdep c hc m').trans hd) ?_
      rcases hview c hc with rfl | hv
      · exact .inl ((hset m').trans (by rw [hd]))
      · rcases h with h | h
        · exact .inl ((hv m').trans h)
        · rcases List.mem_cons.mp h with rfl | h
          · exact .inl ((hset m').trans (by rw [hd]))
          · exact .inr h
  exact key l (fun _ h => h) m rfl (.inr ha)

/-! ## Bodies -/

theorem passBody_body (b : Option ℕ) (B : Body Q FB) (m : Mem Q FL FP FR FB) :
    (passBody S b B m).body = m.body ∧ (passBody S b B m).ground = m.ground :=
  have h := aside_passBody (S := S) b B m
  ⟨congrArg (fun x => x.1) h, congrArg (fun x => x.2.1) h⟩

theorem passBody_t (b : Option ℕ) (B : Body Q FB) (m : Mem Q FL FP FR FB) : (passBody S b B m).t = m.t := by
  unfold passBody
  refine (foldl_same (fun m => m.t) _ _ (fun m a _ => ?_) _).trans (foldl_same (fun m => m.t) _ _ (by intro m a _; rfl) m)
  dsimp only [rodKin]
  split_ifs <;> rfl

/-- The bodies after one step of the loops over the bodies. -/
theorem fairBody_body (tl : ℝ) (m : Mem Q FL FP FR FB) (b : ℕ) : (fairBody S tl m b).body = Function.update m.body b
    (match S.bkind b with
      | .COUPLED => bodyTo S tl ((0, S.one), (0, 0)) .COUPLED (m.body b)
      | .CPLDPIN => { m.body b with
          pos := (m.body b).ves.1.1 + tl • (m.body b).ves.2.1.1
          vel := (m.body b).ves.2.1.1
          acc := ((m.body b).ves.2.2.1, (m.body b).acc.2) }
      | _ => m.body b) := by
  unfold fairBody
  cases S.bkind b with
  | FREE => exact (Function.update_eq_self b m.body).symm
  | FIXED => exact (Function.update_eq_self b m.body).symm
  | COUPLED => exact (passBody_body _ _ _).1
  | CPLDPIN => rfl

theorem stateBody_body (e : ℕ → (V × Q) × (V × V)) (m : Mem Q FL FP FR FB) (b : ℕ) : (stateBody S e m b).body = Function.update m.body b
    (match S.bkind b with
      | .FREE => bodyTo S 0 (e b) .FREE (m.body b)
      | .CPLDPIN => { m.body b with quat := (e b).1.2, w := (e b).2.2, orMat := S.mat (e b).1.2 }
      | _ => m.body b) := by
  unfold stateBody
  cases S.bkind b with
  | FREE => exact (passBody_body _ _ _).1
  | FIXED => exact (Function.update_eq_self b m.body).symm
  | COUPLED => exact (Function.update_eq_self b m.body).symm
  | CPLDPIN => exact (passBody_body _ _ _).1

/-- `Update`, phase by phase. -/
theorem update_phases (t tl : ℝ) (e : State Q) (m : Mem Q FL FP FR FB) : update S t tl e m =
    stateLines S e.1 ((List.range S.np).foldl (statePoint S e.2.1) ((List.range S.nr).foldl (stateRod S e.2.2.1)
      ((List.range S.nb).foldl (stateBody S e.2.2.2) ((List.range S.np).foldl (fairPoint S tl)
      ((List.range S.nr).foldl (fairRod S tl) ((List.range S.nb).foldl (fairBody S tl) (ph1 S t m))))))) := rfl

theorem fairRod_rest (tl : ℝ) (m : Mem Q FL FP FR FB) (i : ℕ) : (fairRod S tl m i).body = m.body ∧ (fairRod S tl m i).ground = m.ground ∧
    (fairRod S tl m i).point = m.point ∧ (fairRod S tl m i).t = m.t := by
  unfold fairRod
  cases S.rkind i <;> exact ⟨rfl, rfl, rfl, rfl⟩

theorem stateRod_rest (e : ℕ → (V × Q) × (V × V)) (m : Mem Q FL FP FR FB) (i : ℕ) : (stateRod S e m i).body = m.body ∧
    (stateRod S e m i).ground = m.ground ∧ (stateRod S e m i).point = m.point ∧ (stateRod S e m i).t = m.t := by
  unfold stateRod
  cases S.rkind i <;> exact ⟨rfl, rfl, rfl, rfl⟩

theorem fairPoint_rest (tl : ℝ) (m : Mem Q FL FP FR FB) (i : ℕ) : (fairPoint S tl m i).body = m.body ∧
    (fairPoint S tl m i).ground = m.ground ∧ (fairPoint S tl m i).rod = m.rod ∧ (fairPoint S tl m i).t = m.t := by
  unfold fairPoint
  split_ifs <;> exact ⟨rfl, rfl, rfl, rfl⟩

theorem statePoint_rest (e : ℕ → V × V) (m : Mem Q FL FP FR FB) (i : ℕ) : (statePoint S e m i).body = m.body ∧
    (statePoint S e m i).ground = m.ground ∧ (statePoint S e m i).rod = m.rod ∧ (statePoint S e m i).t = m.t := by
  unfold statePoint
  split_ifs <;> exact ⟨rfl, rfl, rfl, rfl⟩

/-- The loops over bodies leave the ground and the time alone. -/
theorem fairBody_rest (tl : ℝ) (m : Mem Q FL FP FR FB) (b : ℕ) : (fairBody S tl m b).ground = m.ground ∧ (fairBody S tl m b).t = m.t := by
  unfold fairBody
  cases S.bkind b with
  | COUPLED => exact ⟨(passBody_body _ _ _).2, passBody_t _ _ _⟩
  | _ => exact ⟨rfl, rfl⟩

@[inherit_doc fairBody_rest]
theorem stateBody_rest (e : ℕ → (V × Q) × (V × V)) (m : Mem Q FL FP FR FB) (b : ℕ) : (stateBody S e m b).ground = m.ground ∧
    (stateBody S e m b).t = m.t := by
  unfold stateBody
  cases S.bkind b with
  | FREE => exact ⟨(passBody_body _ _ _).2, passBody_t _ _ _⟩
  | CPLDPIN => exact ⟨(passBody_body _ _ _).2, passBody_t _ _ _⟩
  | _ => exact ⟨rfl, rfl⟩

theorem settled_rest (t tl : ℝ) (e : State Q) (m : Mem Q FL FP FR FB) :
    (update S t tl e m).ground = bodyTo S t ((0, S.one), (0, 0)) .COUPLED m.ground ∧ (update S t tl e m).t = t := by
  let g := fun m : Mem Q FL FP FR FB => (m.ground, m.t)
  have h : g (update S t tl e m) = g (ph1 S t m) := by
    rw [update_phases]
    show g ((List.range S.np).foldl (statePoint S e.2.1) _) = _
    rw [foldl_same g _ _ fun m i _ => Prod.ext (statePoint_rest e.2.1 m i).2.1 (statePoint_rest e.2.1 m i).2.2.2,
      foldl_same g _ _ fun m i _ => Prod.ext (stateRod_rest e.2.2.1 m i).2.1 (stateRod_rest e.2.2.1 m i).2.2.2,
      foldl_same g _ _ fun m i _ => Prod.ext (stateBody_rest e.2.2.2 m i).1 (stateBody_rest e.2.2.2 m i).2,
      foldl_same g _ _ fun m i _ => Prod.ext (fairPoint_rest tl m i).2.1 (fairPoint_rest tl m i).2.2.2,
      foldl_same g _ _ fun m i _ => Prod.ext (fairRod_rest tl m i).2.1 (fairRod_rest tl m i).2.2.2,
      foldl_same g _ _ fun m i _ => Prod.ext (fairBody_rest tl m i).1 (fairBody_rest tl m i).2]
  have h1 : g (ph1 S t m) = (bodyFair S t m.ground, t) := Prod.ext (passBody_body _ _ _).2 (passBody_t _ _ _)
  rw [h1] at h
  exact ⟨congrArg Prod.fst h, congrArg Prod.snd h⟩

theorem fairBodies_body (tl : ℝ) (b : ℕ) (hb : b < S.nb) (m : Mem Q FL FP FR FB) :
    ((List.range S.nb).foldl (fairBody S tl) m).body b =
    match S.bkind b with
      | .COUPLED => bodyTo S tl ((0, S.one), (0, 0)) .COUPLED (m.body b)
      | .CPLDPIN => { m.body b with
          pos := (m.body b).ves.1.1 + tl • (m.body b).ves.2.1.1
          vel := (m.body b).ves.2.1.1
          acc := ((m.body b).ves.2.2.1, (m.body b).acc.2) }
      | _ => m.body b := by
  refine foldl_once (fairBody S tl) _ List.nodup_range (List.mem_range.mpr hb) (fun m => m.body b) (fun m => m.body b)
    (fun B => match S.bkind b with
      | .COUPLED => bodyTo S tl ((0, S.one), (0, 0)) .COUPLED B
      | .CPLDPIN => { B with
          pos := B.ves.1.1 + tl • B.ves.2.1.1
          vel := B.ves.2.1.1
          acc := (B.ves.2.2.1, B.acc.2) }
      | _ => B) (fun m => ?_) (fun c _ hc m => ?_) (fun c _ hc m => ?_) m
  · rw [fairBody_body, Function.update_self]
  · rw [fairBody_body, Function.update_of_ne hc.symm]
  · rw [fairBody_body, Function.update_of_ne hc.symm]

theorem settled_body (t tl : ℝ) (e : State Q) (m : Mem Q FL FP FR FB) (b : ℕ) (hb : b < S.nb) :
    (update S t tl e m).body b = bodyTo S tl (e.2.2.2 b) (S.bkind b) (m.body b) := by
  rw [update_phases]
  show (List.foldl (statePoint S e.2.1) _ _).body b = _
  rw [foldl_same (fun m => m.body b) (statePoint S e.2.1) _ fun m i _ => congrFun (statePoint_rest e.2.1 m i).1 b,
    foldl_same (fun m => m.body b) (stateRod S e.2.2.1) _ fun m i _ => congrFun (stateRod_rest e.2.2.1 m i).1 b]
  rw [foldl_once (stateBody S e.2.2.2) _ List.nodup_range (List.mem_range.mpr hb) (fun m => m.body b) (fun m => m.body b)
    (fun B => match S.bkind b with
      | .FREE => bodyTo S 0 (e.2.2.2 b) .FREE B
      | .CPLDPIN => { B with quat := (e.2.2.2 b).1.2, w := (e.2.2.2 b).2.2, orMat := S.mat (e.2.2.2 b).1.2 }
      | _ => B) (fun m => by rw [stateBody_body, Function.update_self])
    (fun c _ hc m => by rw [stateBody_body, Function.update_of_ne hc.symm])
    (fun c _ hc m => by rw [stateBody_body, Function.update_of_ne hc.symm])]
  rw [foldl_same (fun m => m.body b) (fairPoint S tl) _ fun m i _ => congrFun (fairPoint_rest tl m i).1 b,
    foldl_same (fun m => m.body b) (fairRod S tl) _ fun m i _ => congrFun (fairRod_rest tl m i).1 b]
  rw [fairBodies_body tl b hb, show (ph1 S t m).body b = m.body b from congrFun (passBody_body _ _ _).1 b]
  cases S.bkind b <;> rfl

/-! ## Points -/

theorem movePoint_other {i j : ℕ} (h : j ≠ i) (x xd : V) (m : Mem Q FL FP FR FB) : (movePoint S i x xd m).point j = m.point j :=
  Function.update_of_ne h _ _

theorem rodKin_rest (i : ℕ) (x v dir w : V) (m : Mem Q FL FP FR FB) : (rodKin S i x v dir w m).point = m.point := by
  unfold rodKin
  dsimp only
  split_ifs <;> rfl

theorem passBody_point_out (b : Option ℕ) (B : Body Q FB) (m : Mem Q FL FP FR FB) (i : ℕ) (h : ¬ OnP S b i) :
    (passBody S b B m).point i = m.point i := by
  unfold passBody
  refine (foldl_same (fun m => m.point i) _ _ (fun m a _ => congrFun (rodKin_rest _ _ _ _ _ m) i) _).trans
    (foldl_same (fun m => m.point i) _ _ (fun m a ha => movePoint_other ?_ _ _ m) m)
  rintro rfl
  exact h ⟨a.2, ha⟩

theorem passBody_point_on (hS : Sound S) (b : Option ℕ) (B : Body Q FB) (m : Mem Q FL FP FR FB) (a : ℕ × V) (ha : a ∈ S.pts b) :
    (passBody S b B m).point a.1 =
      { m.point a.1 with r := B.pos + B.orMat *ᵥ a.2, rd := B.vel + B.w ⨯₃ (B.orMat *ᵥ a.2) } := by
  unfold passBody
  refine (foldl_same (fun m => m.point a.1) _ _ (fun m a' _ => congrFun (rodKin_rest _ _ _ _ _ m) a.1) _).trans ?_
  refine foldl_again _ _ ha (fun m => m.point a.1) (fun m => ((m.point a.1).ves, (m.point a.1).F))
    (fun d => ⟨B.pos + B.orMat *ᵥ a.2, B.vel + B.w ⨯₃ (B.orMat *ᵥ a.2), d.1, d.2⟩) (fun m => ?_) (fun c hc m => ?_) (fun c hc => ?_) m
  · simp [movePoint, Mat.transformKinematics, add_comm]
  · dsimp only [movePoint]
    by_cases h : a.1 = c.1
    · rw [h]; simp
    · simp [Function.update_of_ne h]
  · by_cases h : c.1 = a.1
    · exact .inl (hS.pts b b c hc a ha h).2
    · exact .inr fun m => movePoint_other (Ne.symm h) _ _ m

theorem fairBody_point_out (tl : ℝ) (b i : ℕ) (h : S.bkind b = .COUPLED → ¬ OnP S (some b) i) (m : Mem Q FL FP FR FB) :
    (fairBody S tl m b).point i = m.point i := by
  unfold fairBody
  cases hk : S.bkind b with
  | COUPLED => exact passBody_point_out _ _ _ _ (h hk)
  | _ => rfl

theorem stateBody_point_out (e : ℕ → (V × Q) × (V × V)) (b i : ℕ)
    (h : S.bkind b = .FREE ∨ S.bkind b = .CPLDPIN → ¬ OnP S (some b) i) (m : Mem Q FL FP FR FB) :
    (stateBody S e m b).point i = m.point i := by
  unfold stateBody
  cases hk : S.bkind b with
  | FREE => exact passBody_point_out _ _ _ _ (h (.inl hk))
  | CPLDPIN => exact passBody_point_out _ _ _ _ (h (.inr hk))
  | _ => rfl

theorem ph1_point_out (t : ℝ) (m : Mem Q FL FP FR FB) (i : ℕ) (h : ¬ OnP S none i) : (ph1 S t m).point i = m.point i :=
  passBody_point_out _ _ _ _ h

section Points
variable (tl : ℝ) (i : ℕ) (m : Mem Q FL FP FR FB)

theorem fairBodies_point_out (h : ∀ b < S.nb, S.bkind b = .COUPLED → ¬ OnP S (some b) i) :
    ((List.range S.nb).foldl (fairBody S tl) m).point i = m.point i :=
  foldl_same (fun m => m.point i) _ _ (fun m b hb => fairBody_point_out tl b i (h b (List.mem_range.mp hb)) m) m

theorem stateBodies_point_out (e : ℕ → (V × Q) × (V × V))
    (h : ∀ b < S.nb, S.bkind b = .FREE ∨ S.bkind b = .CPLDPIN → ¬ OnP S (some b) i) :
    ((List.range S.nb).foldl (stateBody S e) m).point i = m.point i :=
  foldl_same (fun m => m.point i) _ _ (fun m b hb => stateBody_point_out e b i (h b (List.mem_range.mp hb)) m) m

theorem fairRods_point : ((List.range S.nr).foldl (fairRod S tl) m).point = m.point :=
  foldl_same (fun m => m.point) _ _ (fun m j _ => (fairRod_rest tl m j).2.2.1) m

theorem stateRods_point (e : ℕ → (V × Q) × (V × V)) : ((List.range S.nr).foldl (stateRod S e) m).point = m.point :=
  foldl_same (fun m => m.point) _ _ (fun m j _ => (stateRod_rest e m j).2.2.1) m

theorem fairPoints_out (h : S.pkind i ≠ .COUPLED) : ((List.range S.np).foldl (fairPoint S tl) m).point i = m.point i := by
  refine foldl_same (fun m => m.point i) _ _ (fun m j hj => ?_) m
  unfold fairPoint
  split_ifs with hk
  · exact movePoint_other (by rintro rfl; exact h hk) _ _ _
  · rfl

theorem statePoints_out (e : ℕ → V × V) (h : S.pkind i ≠ .FREE) : ((List.range S.np).foldl (statePoint S e) m).point i = m.point i := by
  refine foldl_same (fun m => m.point i) _ _ (fun m j hj => ?_) m
  unfold statePoint
  split_ifs with hk
  · exact movePoint_other (by rintro rfl; exact h hk) _ _ _
  · rfl

theorem fairPoints_on (hi : i < S.np) (h : S.pkind i = .COUPLED) : ((List.range S.np).foldl (fairPoint S tl) m).point i =
    { m.point i with r := (m.point i).ves.1 + tl • (m.point i).ves.2, rd := (m.point i).ves.2 } := by
  refine foldl_once (fairPoint S tl) _ List.nodup_range (List.mem_range.mpr hi) (fun m => m.point i) (fun m => m.point i)
    (fun P => { P with r := P.ves.1 + tl • P.ves.2, rd := P.ves.2 }) (fun m => ?_) (fun c _ hc m => ?_) (fun c _ hc m => ?_) m
  · simp [fairPoint, h, movePoint]
  · unfold fairPoint
    split_ifs
    · exact movePoint_other hc.symm _ _ _
    · rfl
  · unfold fairPoint
    split_ifs
    · exact movePoint_other hc.symm _ _ _
    · rfl

theorem statePoints_on (e : ℕ → V × V) (hi : i < S.np) (h : S.pkind i = .FREE) : ((List.range S.np).foldl (statePoint S e) m).point i =
    { m.point i with r := (e i).1, rd := (e i).2 } := by
  refine foldl_once (statePoint S e) _ List.nodup_range (List.mem_range.mpr hi) (fun m => m.point i) (fun m => m.point i)
    (fun P => { P with r := (e i).1, rd := (e i).2 }) (fun m => ?_) (fun c _ hc m => ?_) (fun c _ hc m => ?_) m
  · simp [statePoint, h, movePoint]
  · unfold statePoint
    split_ifs
    · exact movePoint_other hc.symm _ _ _
    · rfl
  · unfold statePoint
    split_ifs
    · exact movePoint_other hc.symm _ _ _
    · rfl

end Points

theorem off_body (hS : Sound S) {i : ℕ} (h : S.pkind i ≠ .FIXED) (b : Option ℕ) : ¬ OnP S b i := fun ⟨x, hx⟩ => h (hS.ptsKind b _ hx)

theorem settled_pointGiven (hS : Sound S) (t tl : ℝ) (e : State Q) (m : Mem Q FL FP FR FB) (i : ℕ) (hi : i < S.np)
    (hk : S.pkind i = .COUPLED) : (update S t tl e m).point i =
      { m.point i with r := (m.point i).ves.1 + tl • (m.point i).ves.2, rd := (m.point i).ves.2 } := by
  have off := off_body hS (i := i) (by rw [hk]; decide)
  rw [update_phases]
  show (List.foldl (statePoint S e.2.1) _ _).point i = _
  rw [statePoints_out i _ _ (by rw [hk]; decide), stateRods_point, stateBodies_point_out i _ _ (fun b _ _ => off _), fairPoints_on tl i _ hi hk,
    fairRods_point, fairBodies_point_out tl i _ (fun b _ _ => off _), ph1_point_out t m i (off _)]

theorem settled_pointFree (hS : Sound S) (t tl : ℝ) (e : State Q) (m : Mem Q FL FP FR FB) (i : ℕ) (hi : i < S.np)
    (hk : S.pkind i = .FREE) : (update S t tl e m).point i = { m.point i with r := (e.2.1 i).1, rd := (e.2.1 i).2 } := by
  have off := off_body hS (i := i) (by rw [hk]; decide)
  rw [update_phases]
  show (List.foldl (statePoint S e.2.1) _ _).point i = _
  rw [statePoints_on i _ _ hi hk, stateRods_point, stateBodies_point_out i _ _ (fun b _ _ => off _), fairPoints_out tl i _ (by rw [hk]; decide),
    fairRods_point, fairBodies_point_out tl i _ (fun b _ _ => off _), ph1_point_out t m i (off _)]

theorem settled_pointStays (t tl : ℝ) (e : State Q) (m : Mem Q FL FP FR FB) (i : ℕ) (h : ¬ PMoves S i) :
    (update S t tl e m).point i = m.point i := by
  have off : ∀ b, Moves S b → ¬ OnP S b i := fun b hb ho => h (.inr ⟨b, hb, ho⟩)
  have off' : ∀ b < S.nb, S.bkind b ≠ .FIXED → ¬ OnP S (some b) i := fun b hb hk => off (some b) ⟨hb, hk⟩
  have hk : ∀ j ∈ List.range S.np, S.pkind j ≠ .FIXED → i ≠ j := by
    rintro j hj hk rfl
    exact h (.inl ⟨List.mem_range.mp hj, hk⟩)
  rw [update_phases]
  show (List.foldl (statePoint S e.2.1) _ _).point i = _
  rw [foldl_same (fun m => m.point i) (statePoint S e.2.1) _ fun m j hj => by
    unfold statePoint
    split_ifs with h
    · exact movePoint_other (hk j hj (by rw [h]; decide)) _ _ _
    · rfl]
  rw [stateRods_point, stateBodies_point_out i _ _ fun b hb hc => off' b hb (by rcases hc with hc | hc <;> rw [hc] <;> decide)]
  rw [foldl_same (fun m => m.point i) (fairPoint S tl) _ fun m j hj => by
    unfold fairPoint
    split_ifs with h
    · exact movePoint_other (hk j hj (by rw [h]; decide)) _ _ _
    · rfl]
  rw [fairRods_point, fairBodies_point_out tl i _ fun b hb hc => off' b hb (by rw [hc]; decide), ph1_point_out t m i (off none trivial)]

theorem settled_pointOn (hS : Sound S) (t tl : ℝ) (e : State Q) (m : Mem Q FL FP FR FB) (b : Option ℕ) (hb : Moves S b) (a : ℕ × V)
    (ha : a ∈ S.pts b) : let B := (update S t tl e m).bodyOf b
    (update S t tl e m).point a.1 = { m.point a.1 with r := B.pos + B.orMat *ᵥ a.2, rd := B.vel + B.w ⨯₃ (B.orMat *ᵥ a.2) } := by
  have hk := hS.ptsKind b a ha
  have hF := congrArg (fun x => x.2.1) (kept_update (S := S) t tl e m)
  have hP := (update_P hS t tl e m b a ha (.inl (by cases b with | none => trivial | some b => exact hb.2))).1
  have hv : ((update S t tl e m).point a.1).ves = (m.point a.1).ves := by
    have mv : ∀ (j : ℕ) (x xd : V) (m : Mem Q FL FP FR FB), ((movePoint S j x xd m).point a.1).ves = (m.point a.1).ves := by
      intro j x xd m
      by_cases h : a.1 = j
      · rw [h]; simp [movePoint]
      · rw [movePoint_other h]
    have pb : ∀ (c : Option ℕ) (B : Body Q FB) (m : Mem Q FL FP FR FB), ((passBody S c B m).point a.1).ves = (m.point a.1).ves := by
      intro c B m
      unfold passBody
      exact (foldl_same (fun m => (m.point a.1).ves) _ _ (fun m c _ => by dsimp only; rw [rodKin_rest]) _).trans
        (foldl_same (fun m => (m.point a.1).ves) _ _ (fun m c _ => mv _ _ _ m) m)
    rw [update_phases]
    show ((List.foldl (statePoint S e.2.1) _ _).point a.1).ves = _
    rw [foldl_same (fun m => (m.point a.1).ves) (statePoint S e.2.1) _ fun m j _ => by
      unfold statePoint
      split_ifs
      · exact mv _ _ _ m
      · rfl]
    rw [stateRods_point]
    rw [foldl_same (fun m => (m.point a.1).ves) (stateBody S e.2.2.2) _ fun m j _ => by
      unfold stateBody
      cases S.bkind j with
      | FREE => exact pb _ _ _
      | CPLDPIN => exact pb _ _ _
      | _ => rfl]
    rw [foldl_same (fun m => (m.point a.1).ves) (fairPoint S tl) _ fun m j _ => by
      unfold fairPoint
      split_ifs
      · exact mv _ _ _ m
      · rfl]
    rw [fairRods_point]
    rw [foldl_same (fun m => (m.point a.1).ves) (fairBody S tl) _ fun m j _ => by
      unfold fairBody
      cases S.bkind j with
      | COUPLED => exact pb _ _ _
      | _ => rfl]
    exact pb _ _ _
  obtain ⟨h1, h2⟩ := hP
  have h3 : ((update S t tl e m).point a.1).F = (m.point a.1).F := congrFun hF a.1
  generalize hu : update S t tl e m = m1 at h1 h2 h3 hv
  dsimp only
  rw [← h1, ← h2, ← h3, ← hv]

/-! ## Rods -/

theorem rodEnds_laid {i : ℕ} (hN : 0 < S.rodN i) (R : Rod Q FR) : rodEnds S i R = laid S i R := by
  unfold rodEnds laid
  rw [if_pos hN]
  dsimp only
  congr 1 <;>
  · funext j
    by_cases h0 : j = 0
    · subst h0
      simp [Function.update_of_ne hN.ne]
    · by_cases h1 : j = S.rodN i
      · subst h1
        simp [h0]
      · simp [h0, h1, Function.update_of_ne]

theorem passRod_self {i : ℕ} (hN : 0 < S.rodN i) (m : Mem Q FL FP FR FB) : (passRod S i m).rod i = laid S i (m.rod i) := by
  simp only [passRod, Function.update_self, if_pos hN, rodEnds_laid hN]

theorem passRod_other {i j : ℕ} (h : j ≠ i) (m : Mem Q FL FP FR FB) : (passRod S i m).rod j = m.rod j :=
  Function.update_of_ne h _ _

theorem setRod_self (i : ℕ) (f : Rod Q FR → Rod Q FR) (m : Mem Q FL FP FR FB) : (setRod i f m).rod i = f (m.rod i) :=
  Function.update_self _ _ _

theorem setRod_other {i j : ℕ} (h : j ≠ i) (f : Rod Q FR → Rod Q FR) (m : Mem Q FL FP FR FB) : (setRod i f m).rod j = m.rod j :=
  Function.update_of_ne h _ _

theorem laid_q (i : ℕ) (R : Rod Q FR) : { laid S i R with q := S.mat (laid S i R).quat *ᵥ S.q0 i } = laid S i R := rfl

theorem rodKin_other {i j : ℕ} (h : j ≠ i) (x v dir w : V) (m : Mem Q FL FP FR FB) : (rodKin S i x v dir w m).rod j = m.rod j := by
  unfold rodKin
  dsimp only
  rw [setRod_other h]
  split_ifs
  · rw [passRod_other h, setRod_other h]
  · rw [setRod_other h]

/-- A rod on a body, after the body has told it. -/
def told (S : System Q FL FP FR FB Wt) (i : ℕ) (rel dir : V) (B : Body Q FB) (R : Rod Q FR) : Rod Q FR :=
  if S.rkind i = .FIXED then laid S i (borne S i rel dir B R)
  else { borne S i rel dir B R with q := S.mat R.quat *ᵥ S.q0 i }

theorem rodKin_self {i : ℕ} (hN : 0 < S.rodN i) (rel dir : V) (B : Body Q FB) (m : Mem Q FL FP FR FB) :
    (rodKin S i (Mat.transformKinematics rel B.orMat B.pos B.vel B.w).1 (Mat.transformKinematics rel B.orMat B.pos B.vel B.w).2
      (B.orMat *ᵥ dir) B.w m).rod i = told S i rel dir B (m.rod i) := by
  unfold rodKin told borne
  dsimp only
  rw [setRod_self]
  split_ifs
  · rw [passRod_self hN, setRod_self, laid_q]
    simp [Mat.transformKinematics, add_comm]
  · rw [setRod_self]
    simp [Mat.transformKinematics, add_comm]

theorem passBody_rod_out (b : Option ℕ) (B : Body Q FB) (m : Mem Q FL FP FR FB) (i : ℕ) (h : ¬ OnR S b i) :
    (passBody S b B m).rod i = m.rod i := by
  unfold passBody
  refine (foldl_same (fun m => m.rod i) _ _ (fun m a ha => rodKin_other ?_ _ _ _ _ m) _).trans
    (foldl_same (fun m => m.rod i) _ _ (by intro m a _; rfl) m)
  rintro rfl
  exact h ⟨a.2, ha⟩

/-- What the body does not tell a rod. -/
def untold (S : System Q FL FP FR FB Wt) (i : ℕ) (R : Rod Q FR) :=
  (R.acc, R.ves, R.F, (if S.rkind i = .FIXED then none else some (R.quat, R.w, R.r, R.rd)),
    fun j => if j = 0 ∨ j = S.rodN i then (0, 0) else (R.r j, R.rd j))

theorem untold_told (i : ℕ) (rel dir : V) (B : Body Q FB) (R : Rod Q FR) : untold S i (told S i rel dir B R) = untold S i R := by
  unfold told
  split_ifs with h
  · simp only [untold, laid, borne, h, if_true, Prod.mk.injEq, true_and]
    funext j
    by_cases h0 : j = 0
    · simp [h0]
    · by_cases h1 : j = S.rodN i
      · simp [h1]
      · simp [h0, h1]
  · simp [untold, borne, h]

theorem told_untold (i : ℕ) (rel dir : V) (B : Body Q FB) {R R' : Rod Q FR} (h : untold S i R = untold S i R') :
    told S i rel dir B R = told S i rel dir B R' := by
  simp only [untold, Prod.mk.injEq] at h
  obtain ⟨h1, h2, h3, h4, h5⟩ := h
  unfold told
  split_ifs with hk
  · simp only [laid, borne, hk, if_true, h1, h2, h3, Rod.mk.injEq, true_and, and_true]
    constructor <;>
    · funext j
      have := congrFun h5 j
      by_cases hj : j = 0
      · simp [hj]
      · by_cases hj' : j = S.rodN i
        · simp [hj, hj']
        · simp [hj, hj'] at this ⊢
          simp [this]
  · simp only [hk, if_false, Option.some.injEq, Prod.mk.injEq] at h4
    obtain ⟨a, b, c, d⟩ := h4
    simp [borne, hk, h1, h2, h3, a, b, c, d]

theorem passBody_rod_on (hS : Sound S) (b : Option ℕ) (B : Body Q FB) (m : Mem Q FL FP FR FB) (a : ℕ × V × V) (ha : a ∈ S.rods b)
    (hN : 0 < S.rodN a.1) : (passBody S b B m).rod a.1 = told S a.1 a.2.1 a.2.2 B (m.rod a.1) := by
  unfold passBody
  have e : ∀ m' : Mem Q FL FP FR FB, ((S.pts b).foldl (fun m a =>
      let k := Mat.transformKinematics a.2 B.orMat B.pos B.vel B.w
      movePoint S a.1 k.1 k.2 m) m').rod a.1 = m'.rod a.1 := fun m' =>
    foldl_same (fun m => m.rod a.1) _ _ (by intro m c _; rfl) m'
  rw [← e m]
  generalize (S.pts b).foldl (fun m a =>
      let k := Mat.transformKinematics a.2 B.orMat B.pos B.vel B.w
      movePoint S a.1 k.1 k.2 m) m = m1
  have key : ∀ (l : List (ℕ × V × V)), (∀ c ∈ l, c ∈ S.rods b) → ∀ m' : Mem Q FL FP FR FB, untold S a.1 (m'.rod a.1) = untold S a.1 (m1.rod a.1) →
      (m'.rod a.1 = told S a.1 a.2.1 a.2.2 B (m1.rod a.1) ∨ a ∈ l) → (l.foldl (fun m a =>
        let k := Mat.transformKinematics a.2.1 B.orMat B.pos B.vel B.w
        rodKin S a.1 k.1 k.2 (B.orMat *ᵥ a.2.2) B.w m) m').rod a.1 = told S a.1 a.2.1 a.2.2 B (m1.rod a.1) := by
    intro l
    induction l with
    | nil =>
      rintro - m' - (h | h)
      · exact h
      · cases h
    | cons c l ih =>
      intro hl m' hu h
      have hc := hl c List.mem_cons_self
      rw [List.foldl_cons]
      by_cases hca : c.1 = a.1
      · obtain rfl := (hS.rods b b c hc a ha hca).2
        have hs := rodKin_self hN c.2.1 c.2.2 B m'
        refine ih (fun c hc => hl c (List.mem_cons_of_mem _ hc)) _ ?_ (.inl ?_)
        · dsimp only
          rw [hs, untold_told, hu]
        · dsimp only
          rw [hs]
          exact told_untold _ _ _ _ hu
      · have hs : ∀ x v dir w, (rodKin S c.1 x v dir w m').rod a.1 = m'.rod a.1 := fun x v dir w => rodKin_other (Ne.symm hca) x v dir w m'
        refine ih (fun c hc => hl c (List.mem_cons_of_mem _ hc)) _ ?_ ?_
        · dsimp only
          rw [hs, hu]
        · dsimp only
          rw [hs]
          refine h.imp_right fun h => (List.mem_cons.mp h).resolve_left ?_
          rintro rfl
          exact hca rfl
  exact key _ (fun _ h => h) m1 rfl (.inr ha)

section Rods
variable (tl : ℝ) (i : ℕ) (m : Mem Q FL FP FR FB)

theorem fairBodies_rod_out (h : ∀ b < S.nb, S.bkind b = .COUPLED → ¬ OnR S (some b) i) :
    ((List.range S.nb).foldl (fairBody S tl) m).rod i = m.rod i := by
  refine foldl_same (fun m => m.rod i) _ _ (fun m b hb => ?_) m
  unfold fairBody
  cases hk : S.bkind b with
  | COUPLED => exact passBody_rod_out _ _ _ _ (h b (List.mem_range.mp hb) hk)
  | _ => rfl

theorem stateBodies_rod_out (e : ℕ → (V × Q) × (V × V)) (h : ∀ b < S.nb, S.bkind b = .FREE ∨ S.bkind b = .CPLDPIN → ¬ OnR S (some b) i) :
    ((List.range S.nb).foldl (stateBody S e) m).rod i = m.rod i := by
  refine foldl_same (fun m => m.rod i) _ _ (fun m b hb => ?_) m
  unfold stateBody
  cases hk : S.bkind b with
  | FREE => exact passBody_rod_out _ _ _ _ (h b (List.mem_range.mp hb) (.inl hk))
  | CPLDPIN => exact passBody_rod_out _ _ _ _ (h b (List.mem_range.mp hb) (.inr hk))
  | _ => rfl

theorem fairPoints_rod : ((List.range S.np).foldl (fairPoint S tl) m).rod = m.rod :=
  foldl_same (fun m => m.rod) _ _ (fun m j _ => (fairPoint_rest tl m j).2.2.1) m

theorem statePoints_rod (e : ℕ → V × V) : ((List.range S.np).foldl (statePoint S e) m).rod = m.rod :=
  foldl_same (fun m => m.rod) _ _ (fun m j _ => (statePoint_rest e m j).2.2.1) m

theorem fairRod_other {j : ℕ} (h : i ≠ j) : (fairRod S tl m j).rod i = m.rod i := by
  unfold fairRod
  cases S.rkind j with
  | COUPLED => rw [passRod_other h, setRod_other h]
  | CPLDPIN => exact setRod_other h _ _
  | _ => rfl

theorem stateRod_other (e : ℕ → (V × Q) × (V × V)) {j : ℕ} (h : i ≠ j) : (stateRod S e m j).rod i = m.rod i := by
  unfold stateRod
  cases S.rkind j with
  | FREE => rw [setRod_other h, passRod_other h, setRod_other h]
  | PINNED => rw [setRod_other h, passRod_other h, setRod_other h]
  | CPLDPIN => rw [setRod_other h, passRod_other h, setRod_other h]
  | _ => rfl

/-- What a rod is given. -/
def rodFair (S : System Q FL FP FR FB Wt) (tl : ℝ) (i : ℕ) (R : Rod Q FR) : Rod Q FR :=
  match S.rkind i with
  | .COUPLED => laid S i (rodTo S tl ((0, S.one), (0, 0)) .COUPLED R)
  | .CPLDPIN => { R with pos := R.ves.1.1 + tl • R.ves.2.1.1, vel := R.ves.2.1.1, acc := (R.ves.2.2.1, R.acc.2) }
  | _ => R

theorem fairRods_rod (hi : i < S.nr) (hN : 0 < S.rodN i) :
    ((List.range S.nr).foldl (fairRod S tl) m).rod i = rodFair S tl i (m.rod i) := by
  refine foldl_once (fairRod S tl) _ List.nodup_range (List.mem_range.mpr hi) (fun m => m.rod i) (fun m => m.rod i) (rodFair S tl i)
    (fun m => ?_) (fun c _ hc m => fairRod_other tl i m hc.symm) (fun c _ hc m => fairRod_other tl i m hc.symm) m
  unfold fairRod rodFair
  cases S.rkind i with
  | COUPLED => rw [passRod_self hN, setRod_self]; rfl
  | CPLDPIN => exact setRod_self _ _ _
  | _ => rfl

/-- What a rod has in its state. -/
def rodState (S : System Q FL FP FR FB Wt) (x : (V × Q) × (V × V)) (i : ℕ) (R : Rod Q FR) : Rod Q FR :=
  match S.rkind i with
  | .FREE => laid S i { R with pos := x.1.1, quat := x.1.2, vel := x.2.1, w := x.2.2 }
  | .PINNED | .CPLDPIN => laid S i { R with quat := x.1.2, w := x.2.2 }
  | _ => R

theorem settle_laid (hN : 0 < S.rodN i) (R : Rod Q FR) : settle S i (laid S i R) = laid S i R := by
  unfold settle
  simp only [hN, if_true]
  exact laid_q i R

theorem stateRods_rod (e : ℕ → (V × Q) × (V × V)) (hi : i < S.nr) (hN : 0 < S.rodN i) :
    ((List.range S.nr).foldl (stateRod S e) m).rod i = rodState S (e i) i (m.rod i) := by
  refine foldl_once (stateRod S e) _ List.nodup_range (List.mem_range.mpr hi) (fun m => m.rod i) (fun m => m.rod i) (rodState S (e i) i)
    (fun m => ?_) (fun c _ hc m => stateRod_other i m e hc.symm) (fun c _ hc m => stateRod_other i m e hc.symm) m
  unfold stateRod rodState
  cases S.rkind i with
  | FREE => rw [setRod_self, passRod_self hN, setRod_self, settle_laid i hN]
  | PINNED => rw [setRod_self, passRod_self hN, setRod_self, settle_laid i hN]
  | CPLDPIN => rw [setRod_self, passRod_self hN, setRod_self, settle_laid i hN]
  | _ => rfl

end Rods

theorem ph1_rod_out (t : ℝ) (m : Mem Q FL FP FR FB) (i : ℕ) (h : ¬ OnR S none i) : (ph1 S t m).rod i = m.rod i :=
  passBody_rod_out _ _ _ _ h

theorem rodFair_on (hS : Sound S) (tl : ℝ) {b : Option ℕ} {a : ℕ × V × V} (ha : a ∈ S.rods b) (R : Rod Q FR) :
    rodFair S tl a.1 R = R := by
  unfold rodFair
  rcases hS.rodsKind b a ha with h | h <;> rw [h]

theorem rodState_told (hS : Sound S) (tl : ℝ) (x : (V × Q) × (V × V)) {b : Option ℕ} {a : ℕ × V × V} (ha : a ∈ S.rods b) (B : Body Q FB)
    (R : Rod Q FR) : rodState S x a.1 (told S a.1 a.2.1 a.2.2 B R) =
      laid S a.1 (rodTo S tl x (S.rkind a.1) (borne S a.1 a.2.1 a.2.2 B R)) := by
  unfold rodState told
  rcases hS.rodsKind b a ha with h | h
  · simp only [h, if_true, rodTo]
  · simp only [h, reduceCtorEq, if_false, rodTo, laid]

theorem bodyOf_told (t tl : ℝ) (e : State Q) (m : Mem Q FL FP FR FB) (b : ℕ) (hb : b < S.nb) :
    ((List.range S.nb).foldl (stateBody S e.2.2.2) ((List.range S.np).foldl (fairPoint S tl)
      ((List.range S.nr).foldl (fairRod S tl) ((List.range S.nb).foldl (fairBody S tl) (ph1 S t m))))).body b =
      (update S t tl e m).body b := by
  rw [update_phases]
  symm
  show (List.foldl (statePoint S e.2.1) _ _).body b = _
  rw [foldl_same (fun m => m.body b) (statePoint S e.2.1) _ fun m i _ => congrFun (statePoint_rest e.2.1 m i).1 b,
    foldl_same (fun m => m.body b) (stateRod S e.2.2.1) _ fun m i _ => congrFun (stateRod_rest e.2.2.1 m i).1 b]

theorem fairBody_other {tl : ℝ} {b i : ℕ} (h : ¬ OnR S (some b) i) (m : Mem Q FL FP FR FB) : (fairBody S tl m b).rod i = m.rod i := by
  unfold fairBody
  cases S.bkind b with
  | COUPLED => exact passBody_rod_out _ _ _ _ h
  | _ => rfl

theorem stateBody_other {e : ℕ → (V × Q) × (V × V)} {b i : ℕ} (h : ¬ OnR S (some b) i) (m : Mem Q FL FP FR FB) :
    (stateBody S e m b).rod i = m.rod i := by
  unfold stateBody
  cases S.bkind b with
  | FREE => exact passBody_rod_out _ _ _ _ h
  | CPLDPIN => exact passBody_rod_out _ _ _ _ h
  | _ => rfl

/-- A rod on a coupled body after the loop over the bodies. -/
theorem fairBodies_rod_on (hS : Sound S) (hN : ∀ i < S.nr, 0 < S.rodN i) (tl : ℝ) (b : ℕ) (hb : b < S.nb) (hk : S.bkind b = .COUPLED) (a : ℕ × V × V)
    (ha : a ∈ S.rods (some b)) (m : Mem Q FL FP FR FB) : ((List.range S.nb).foldl (fairBody S tl) m).rod a.1 =
      told S a.1 a.2.1 a.2.2 (((List.range S.nb).foldl (fairBody S tl) m).body b) (m.rod a.1) := by
  have off : ∀ c, c ≠ b → ¬ OnR S (some c) a.1 := fun c hc ho => hc (Option.some.inj (onR_unique hS ha ho)).symm
  have h := foldl_once (fairBody S tl) _ List.nodup_range (List.mem_range.mpr hb) (fun m => m.rod a.1) (fun m => (m.body b, m.rod a.1))
    (fun x => told S a.1 a.2.1 a.2.2 (bodyTo S tl ((0, S.one), (0, 0)) .COUPLED x.1) x.2) (fun m => ?_) (fun c _ hc m => ?_)
    (fun c _ hc m => ?_) m
  · rw [h, fairBodies_body tl b hb, hk]
  · unfold fairBody
    rw [hk]
    exact passBody_rod_on hS (some b) _ _ a ha (hN _ (hS.rodsNum _ a ha))
  · rw [fairBody_other (off c hc) m, fairBody_body, Function.update_of_ne hc.symm]
  · exact fairBody_other (off c hc) m

/-- A rod on a body with a state after the loop over the bodies. -/
theorem stateBodies_rod_on (hS : Sound S) (hN : ∀ i < S.nr, 0 < S.rodN i) (e : ℕ → (V × Q) × (V × V)) (b : ℕ) (hb : b < S.nb)
    (hk : S.bkind b = .FREE ∨ S.bkind b = .CPLDPIN) (a : ℕ × V × V)
    (ha : a ∈ S.rods (some b)) (m : Mem Q FL FP FR FB) : ((List.range S.nb).foldl (stateBody S e) m).rod a.1 =
      told S a.1 a.2.1 a.2.2 (((List.range S.nb).foldl (stateBody S e) m).body b) (m.rod a.1) := by
  have off : ∀ c, c ≠ b → ¬ OnR S (some c) a.1 := fun c hc ho => hc (Option.some.inj (onR_unique hS ha ho)).symm
  have hB := foldl_once (stateBody S e) _ List.nodup_range (List.mem_range.mpr hb) (fun m => m.body b) (fun m => m.body b)
    (fun B => match S.bkind b with
      | .FREE => bodyTo S 0 (e b) .FREE B
      | .CPLDPIN => { B with quat := (e b).1.2, w := (e b).2.2, orMat := S.mat (e b).1.2 }
      | _ => B) (fun m => by rw [stateBody_body, Function.update_self])
    (fun c _ hc m => by rw [stateBody_body, Function.update_of_ne hc.symm])
    (fun c _ hc m => by rw [stateBody_body, Function.update_of_ne hc.symm]) m
  have h := foldl_once (stateBody S e) _ List.nodup_range (List.mem_range.mpr hb) (fun m => m.rod a.1) (fun m => (m.body b, m.rod a.1))
    (fun x => told S a.1 a.2.1 a.2.2 (match S.bkind b with
      | .FREE => bodyTo S 0 (e b) .FREE x.1
      | .CPLDPIN => { x.1 with quat := (e b).1.2, w := (e b).2.2, orMat := S.mat (e b).1.2 }
      | _ => x.1) x.2) (fun m => ?_) (fun c _ hc m => ?_)
    (fun c _ hc m => ?_) m
  · rw [h, hB]
  · unfold stateBody
    rcases hk with hk | hk <;> rw [hk] <;> exact passBody_rod_on hS (some b) _ _ a ha (hN _ (hS.rodsNum _ a ha))
  · rw [stateBody_other (off c hc) m, stateBody_body, Function.update_of_ne hc.symm]
  · exact stateBody_other (off c hc) m

theorem settled_rodOn (hS : Sound S) (hN : ∀ i < S.nr, 0 < S.rodN i) (t tl : ℝ) (e : State Q) (m : Mem Q FL FP FR FB) (b : Option ℕ)
    (hb : Moves S b) (a : ℕ × V × V) (ha : a ∈ S.rods b) : (update S t tl e m).rod a.1 =
      laid S a.1 (rodTo S tl (e.2.2.1 a.1) (S.rkind a.1) (borne S a.1 a.2.1 a.2.2 ((update S t tl e m).bodyOf b) (m.rod a.1))) := by
  have hr := hS.rodsNum _ a ha
  have off : ∀ c, c ≠ b → ¬ OnR S c a.1 := fun c hc ho => hc (onR_unique hS ha ho).symm
  rw [← rodState_told hS tl _ ha]
  cases b with
  | none =>
    rw [show (update S t tl e m).bodyOf none = _ from (settled_rest t tl e m).1, update_phases]
    show (List.foldl (statePoint S e.2.1) _ _).rod a.1 = _
    rw [statePoints_rod, stateRods_rod _ _ _ hr (hN _ hr), stateBodies_rod_out _ _ _ fun c _ _ => off _ (by simp), fairPoints_rod,
      fairRods_rod _ _ _ hr (hN _ hr), rodFair_on hS tl ha, fairBodies_rod_out _ _ _ fun c _ _ => off _ (by simp)]
    exact congrArg _ (passBody_rod_on hS none _ _ a ha (hN _ hr))
  | some b =>
    have h2 := hb.2
    have hB : (update S t tl e m).bodyOf (some b) = (update S t tl e m).body b := rfl
    rw [hB]
    cases hk : S.bkind b with
    | FIXED => exact absurd hk h2
    | COUPLED =>
      have e1 : (update S t tl e m).body b = ((List.range S.nb).foldl (fairBody S tl) (ph1 S t m)).body b := by
        rw [settled_body t tl e m b hb.1, fairBodies_body tl b hb.1, hk, show (ph1 S t m).body b = m.body b from congrFun (passBody_body _ _ _).1 b]
        rfl
      rw [e1, update_phases]
      show (List.foldl (statePoint S e.2.1) _ _).rod a.1 = _
      rw [statePoints_rod, stateRods_rod _ _ _ hr (hN _ hr), stateBodies_rod_out _ _ _ fun c _ hc => off _ (by
          rintro h
          cases h
          rw [hk] at hc
          simp at hc), fairPoints_rod,
        fairRods_rod _ _ _ hr (hN _ hr), rodFair_on hS tl ha, fairBodies_rod_on hS hN tl b hb.1 hk a ha, ph1_rod_out t m _ (off _ (by simp))]
    | FREE =>
      rw [← bodyOf_told t tl e m b hb.1, update_phases]
      show (List.foldl (statePoint S e.2.1) _ _).rod a.1 = _
      rw [statePoints_rod, stateRods_rod _ _ _ hr (hN _ hr), stateBodies_rod_on hS hN _ b hb.1 (.inl hk) a ha, fairPoints_rod,
        fairRods_rod _ _ _ hr (hN _ hr), rodFair_on hS tl ha, fairBodies_rod_out _ _ _ fun c _ hc => off _ (by
          rintro h
          cases h
          rw [hk] at hc
          simp at hc), ph1_rod_out t m _ (off _ (by simp))]
    | CPLDPIN =>
      rw [← bodyOf_told t tl e m b hb.1, update_phases]
      show (List.foldl (statePoint S e.2.1) _ _).rod a.1 = _
      rw [statePoints_rod, stateRods_rod _ _ _ hr (hN _ hr), stateBodies_rod_on hS hN _ b hb.1 (.inr hk) a ha, fairPoints_rod,
        fairRods_rod _ _ _ hr (hN _ hr), rodFair_on hS tl ha, fairBodies_rod_out _ _ _ fun c _ hc => off _ (by
          rintro h
          cases h
          rw [hk] at hc
          simp at hc), ph1_rod_out t m _ (off _ (by simp))]

theorem settled_rodOff (t tl : ℝ) (e : State Q) (m : Mem Q FL FP FR FB) (i : ℕ) (hi : i < S.nr) (hN : 0 < S.rodN i)
    (h : ¬ ∃ b, Moves S b ∧ OnR S b i) : (update S t tl e m).rod i = rodState S (e.2.2.1 i) i (rodFair S tl i (m.rod i)) := by
  have off : ∀ b, Moves S b → ¬ OnR S b i := fun b hb ho => h ⟨b, hb, ho⟩
  rw [update_phases]
  show (List.foldl (statePoint S e.2.1) _ _).rod i = _
  rw [statePoints_rod, stateRods_rod _ _ _ hi hN, stateBodies_rod_out _ _ _ fun c hc hk => off (some c)
      ⟨hc, by rcases hk with hk | hk <;> rw [hk] <;> decide⟩, fairPoints_rod,
    fairRods_rod _ _ _ hi hN, fairBodies_rod_out _ _ _ fun c hc hk => off (some c) ⟨hc, by rw [hk]; decide⟩, ph1_rod_out t m _ (off none trivial)]

theorem settled_rodAlone (t tl : ℝ) (e : State Q) (m : Mem Q FL FP FR FB) (i : ℕ) (hi : i < S.nr) (hN : 0 < S.rodN i)
    (hk : S.rkind i ≠ .FIXED) (h : ¬ ∃ b, Moves S b ∧ OnR S b i) :
    (update S t tl e m).rod i = laid S i (rodTo S tl (e.2.2.1 i) (S.rkind i) (m.rod i)) := by
  rw [settled_rodOff t tl e m i hi hN h]
  unfold rodState rodFair
  cases hk' : S.rkind i with
  | FIXED => exact absurd hk' hk
  | _ => rfl

theorem settled_rodStays (hS : Sound S) (hN : ∀ i < S.nr, 0 < S.rodN i) (t tl : ℝ) (e : State Q) (m : Mem Q FL FP FR FB) (i : ℕ)
    (h : ¬ RMoves S i) : (update S t tl e m).rod i = m.rod i := by
  by_cases hi : i < S.nr
  · have hk : S.rkind i = .FIXED := by
      by_contra hk
      exact h (.inl ⟨hi, hk⟩)
    rw [settled_rodOff t tl e m i hi (hN i hi) fun ⟨b, hb, ho⟩ => h (.inr ⟨b, hb, ho⟩)]
    simp only [rodState, rodFair, hk]
  · have off : ∀ b, ¬ OnR S b i := fun b ⟨x, hx⟩ => hi (hS.rodsNum b _ hx)
    rw [update_phases]
    show (List.foldl (statePoint S e.2.1) _ _).rod i = _
    rw [statePoints_rod, foldl_same (fun m => m.rod i) (stateRod S e.2.2.1) _ fun m j hj => stateRod_other i m _ (by
        rintro rfl; exact hi (List.mem_range.mp hj)), stateBodies_rod_out _ _ _ fun c hc hk => off (some c), fairPoints_rod,
      foldl_same (fun m => m.rod i) (fairRod S tl) _ fun m j hj => fairRod_other tl i m (by
        rintro rfl; exact hi (List.mem_range.mp hj)), fairBodies_rod_out _ _ _ fun c hc hk => off (some c), ph1_rod_out t m _ (off none)]

/-! ## Lines -/

/-- What is not written in a line when its ends are told where they are: forces, inner nodes, and the directions of the ends at points. -/
def deep (S : System Q FL FP FR FB Wt) (f : ℕ → Line FL) :=
  ((fun k => (f k).F), (fun k (j : { j // j ≠ 0 ∧ j ≠ S.lineN k }) => ((f k).s.r j, (f k).s.rd j)),
    fun a : { a : ℕ × EndPt // ∃ i, a ∈ S.ends i } => (tip S a.1.1 (f a.1.1) a.1.2).2.2.2)

theorem inner_giveEnd (k : ℕ) (x xd : V) (p : EndPt) (L : Line FL) (j : ℕ) (h0 : j ≠ 0) (h1 : j ≠ S.lineN k) :
    (giveEnd (S.lineN k) x xd p L).s.r j = L.s.r j ∧ (giveEnd (S.lineN k) x xd p L).s.rd j = L.s.rd j ∧
      (giveEnd (S.lineN k) x xd p L).F = L.F := by
  cases p <;> simp [giveEnd, Function.update_of_ne h0, Function.update_of_ne h1]

theorem deep_passEnds (hS : Sound S) (x xd : V) (l : List (ℕ × EndPt)) (f : ℕ → Line FL) : deep S (passEnds S x xd l f) = deep S f := by
  refine Prod.ext (passEnds_F x xd l f) (Prod.ext ?_ ?_)
  · unfold passEnds
    induction l generalizing f with
    | nil => rfl
    | cons a l ih =>
      rw [List.foldl_cons, ih]
      funext k j
      by_cases hk : k = a.1
      · subst hk
        obtain ⟨h1, h2, -⟩ := inner_giveEnd (S := S) a.1 x xd a.2 (f a.1) j j.2.1 j.2.2
        simp [deep, h1, h2]
      · simp [deep, Function.update_of_ne hk]
  · funext a
    simp only [deep, tip_passEnds hS.lineN]
    split_ifs <;> rfl

theorem deep_passDirs (hS : Sound S) (q : V) (e : REnd) (l : List (ℕ × EndPt)) (f : ℕ → Line FL)
    (hl : ∀ i, ∀ a ∈ S.ends i, a ∉ l) : deep S (passDirs q e l f) = deep S f := by
  refine Prod.ext (passDirs_F q e l f) (Prod.ext ?_ ?_)
  · clear hl
    unfold passDirs
    induction l generalizing f with
    | nil => rfl
    | cons a l ih =>
      rw [List.foldl_cons, ih]
      funext k j
      by_cases hk : k = a.1
      · subst hk
        cases ha : a.2 <;> simp [deep, giveDir, ha]
      · simp [deep, Function.update_of_ne hk]
  · funext a
    obtain ⟨a, i, ha⟩ := a
    simp only [deep, tip_passDirs, if_neg (hl i a ha)]

theorem deep_movePoint (hS : Sound S) (i : ℕ) (x xd : V) (m : Mem Q FL FP FR FB) : deep S (movePoint S i x xd m).line = deep S m.line :=
  deep_passEnds hS _ _ _ _

theorem deep_passRod (hS : Sound S) (i : ℕ) (m : Mem Q FL FP FR FB) : deep S (passRod S i m).line = deep S m.line := by
  have hA : ∀ j, ∀ a ∈ S.ends j, a ∉ S.endsA i := fun j a ha h => by cases hS.once (.point j) (.rodA i) a ha h
  have hB : ∀ j, ∀ a ∈ S.ends j, a ∉ S.endsB i := fun j a ha h => by cases hS.once (.point j) (.rodB i) a ha h
  unfold passRod
  dsimp only
  rw [deep_passDirs hS _ _ _ _ hB, deep_passDirs hS _ _ _ _ hA, deep_passEnds hS, deep_passEnds hS]

theorem deep_rodKin (hS : Sound S) (i : ℕ) (x v dir w : V) (m : Mem Q FL FP FR FB) : deep S (rodKin S i x v dir w m).line = deep S m.line := by
  unfold rodKin
  dsimp only
  split_ifs
  · exact deep_passRod hS i _
  · rfl

theorem deep_passBody (hS : Sound S) (b : Option ℕ) (B : Body Q FB) (m : Mem Q FL FP FR FB) :
    deep S (passBody S b B m).line = deep S m.line := by
  unfold passBody
  exact (foldl_same (fun m => deep S m.line) _ _ (fun m a _ => deep_rodKin hS _ _ _ _ _ m) _).trans
    (foldl_same (fun m => deep S m.line) _ _ (fun m a _ => deep_movePoint hS _ _ _ m) m)

theorem deep_phases (hS : Sound S) (t tl : ℝ) (e : State Q) (m : Mem Q FL FP FR FB) :
    ∃ m' : Mem Q FL FP FR FB, update S t tl e m = stateLines S e.1 m' ∧ deep S m'.line = deep S m.line := by
  refine ⟨_, update_phases t tl e m, ?_⟩
  rw [foldl_same (fun m => deep S m.line) (statePoint S e.2.1) _ fun m i _ => by
    unfold statePoint
    split_ifs
    · exact deep_movePoint hS _ _ _ m
    · rfl]
  rw [foldl_same (fun m => deep S m.line) (stateRod S e.2.2.1) _ fun m i _ => by
    unfold stateRod
    cases S.rkind i <;> first | rfl | exact deep_passRod hS i _]
  rw [foldl_same (fun m => deep S m.line) (stateBody S e.2.2.2) _ fun m i _ => by
    unfold stateBody
    cases S.bkind i <;> first | rfl | exact deep_passBody hS _ _ _]
  rw [foldl_same (fun m => deep S m.line) (fairPoint S tl) _ fun m i _ => by
    unfold fairPoint
    split_ifs
    · exact deep_movePoint hS _ _ _ m
    · rfl]
  rw [foldl_same (fun m => deep S m.line) (fairRod S tl) _ fun m i _ => by
    unfold fairRod
    cases S.rkind i <;> first | rfl | exact deep_passRod hS i _]
  rw [foldl_same (fun m => deep S m.line) (fairBody S tl) _ fun m i _ => by
    unfold fairBody
    cases S.bkind i <;> first | rfl | exact deep_passBody hS _ _ _]
  exact deep_passBody hS _ _ _

/-- `Update` does what `Settled` says. -/
theorem settled (hS : Sound S) (hN : ∀ i < S.nr, 0 < S.rodN i) (t tl : ℝ) (e : State Q) (m : Mem Q FL FP FR FB)
    (hm : Connected S (update S t tl e m)) : Settled S t tl e m (update S t tl e m) := by
  obtain ⟨m', h1, h2⟩ := deep_phases hS t tl e m
  simp only [deep, Prod.mk.injEq] at h2
  obtain ⟨d1, d2, d3⟩ := h2
  refine ⟨(settled_rest t tl e m).2, (settled_rest t tl e m).1, settled_body t tl e m, settled_pointOn hS t tl e m,
    settled_pointGiven hS t tl e m, settled_pointFree hS t tl e m, settled_pointStays t tl e m, settled_rodOn hS hN t tl e m,
    fun i hi hk h => settled_rodAlone t tl e m i hi (hN i hi) hk h, settled_rodStays hS hN t tl e m, fun k => ?_, fun k j h0 hN' => ?_,
    fun i a ha => ?_, hm⟩
  · rw [← congrFun d1 k, h1]
    simp only [stateLines]
    split_ifs <;> rfl
  · have := congrFun (congrFun d2 k) ⟨j, h0, hN'⟩
    simp only [Prod.mk.injEq] at this
    rw [h1]
    simp only [stateLines]
    by_cases hk : k < S.nl
    · by_cases hj : j < S.lineN k
      · simp [hk, hj, stateLine, Nat.one_le_iff_ne_zero, h0]
      · simp [hk, hj, stateLine, this]
    · simp [hk, this]
  · rw [← congrFun d3 ⟨a, i, ha⟩, h1]
    simp only [stateLines]
    split_ifs
    · cases a.2 <;> rfl
    · rfl

end MD.Whole
