import Verif.Model.Time

/-!
# A step begins by telling the objects the state
-/

set_option linter.unusedSectionVars false

namespace MD.Relate

open MD.Time

variable {K E M : Type} [Field K] [AddCommGroup E] [Module K E]

/-- Two simulations in the same state, whose objects are the same once they have been told a state. -/
structure Told (mc : Machine K E M) (s s' : Sim K E M) : Prop where
  t : s.t = s'.t
  tl : s.tl = s'.tl
  r : s.r = s'.r
  rd : s.rd = s'.rd
  n : s.n = s'.n
  m : ∀ t tl e, mc.update t tl e s.m = mc.update t tl e s'.m

variable {mc : Machine K E M} {s s' : Sim K E M}

theorem Told.upd (h : Told mc s s') (x : K) (k : ℕ) : upd mc x k s = upd mc x k s' := by
  obtain ⟨t, tl, r, rd, n, m⟩ := s
  obtain ⟨t', tl', r', rd', n', m'⟩ := s'
  obtain ⟨h1, h2, h3, h4, h5, h6⟩ := h
  cases h1; cases h2; cases h3; cases h4; cases h5
  simp only [Time.upd]
  rw [h6]

theorem Told.setR (h : Told mc s s') (k : ℕ) (e : E) : Told mc (setR k e s) (setR k e s') :=
  ⟨h.t, h.tl, by simp only [Time.setR, h.r], h.rd, h.n, h.m⟩

theorem Told.setRd (h : Told mc s s') (k : ℕ) (e : E) : Told mc (setRd k e s) (setRd k e s') :=
  ⟨h.t, h.tl, h.r, by simp only [Time.setRd, h.rd], h.n, h.m⟩

theorem Told.addT (h : Told mc s s') (x : K) : Told mc (addT x s) (addT x s') :=
  ⟨by simp only [Time.addT, h.t], h.tl, h.r, h.rd, h.n, h.m⟩

theorem foldl_told {f : Sim K E M → ℕ → Sim K E M} (hf : ∀ s s' i, Told mc s s' → f s i = f s' i) (n : ℕ)
    (h : Told mc s s') : Told mc ((List.range n).foldl f s) ((List.range n).foldl f s') := by
  cases n with
  | zero => exact h
  | succ n =>
    rw [List.range_succ_eq_map, List.foldl_cons, List.foldl_cons, hf _ _ _ h]
    exact ⟨rfl, rfl, rfl, rfl, rfl, fun _ _ _ => rfl⟩

theorem Told.refl (s : Sim K E M) : Told mc s s := ⟨rfl, rfl, rfl, rfl, rfl, fun _ _ _ => rfl⟩

theorem impBody_told (ax : Aux K E) (n : ℕ) (fac dt : K) (i : ℕ) (h : Told mc s s') :
    impBody mc ax n fac dt i s = impBody mc ax n fac dt i s' := by
  have h1 := (h.setR 1 (s.r 0 + (fac * dt) • s.rd 0)).upd (fac * dt) 1
  have h2 : upd mc (fac * dt) 1 (setR 1 (s.r 0 + (fac * dt) • s.rd 0) s) =
      upd mc (fac * dt) 1 (setR 1 (s'.r 0 + (fac * dt) • s'.rd 0) s') := by
    rw [h1, h.r, h.rd]
  exact congrArg (fun s =>
    let s := clc mc 0 s
    if i < n - 1 then
      let s := setRd 0 (mix (s.rd 0) (s.rd 1) (ax.relax n i)) s
      setRd 1 (s.rd 0) s
    else s) h2

theorem newmarkBody_told (ax : Aux K E) (n : ℕ) (ga be dt : K) (i : ℕ) (h : Told mc s s') :
    newmarkBody mc ax n ga be dt i s = newmarkBody mc ax n ga be dt i s' := by
  have h1 := (h.setR 1 (s.r 0 + dt • ax.newmark ga be (s.rd 0) (s.rd 1) dt)).upd dt 1
  have h2 : upd mc dt 1 (setR 1 (s.r 0 + dt • ax.newmark ga be (s.rd 0) (s.rd 1) dt) s) =
      upd mc dt 1 (setR 1 (s'.r 0 + dt • ax.newmark ga be (s'.rd 0) (s'.rd 1) dt) s') := by
    rw [h1, h.r, h.rd]
  exact congrArg (fun s =>
    let s := clc mc 1 s
    if i < n - 1 then
      let s := setRd 1 (mix (s.rd 1) (s.rd 2) (ax.relax n i)) s
      setRd 2 (s.rd 1) s
    else s) h2

theorem wilsonBody_told (ax : Aux K E) (n : ℕ) (tdt : K) (i : ℕ) (h : Told mc s s') :
    wilsonBody mc ax n tdt i s = wilsonBody mc ax n tdt i s' := by
  have h1 := (h.setR 1 (s.r 0 + tdt • ax.wilson (s.rd 0) (s.rd 1) tdt tdt)).upd tdt 1
  have h2 : upd mc tdt 1 (setR 1 (s.r 0 + tdt • ax.wilson (s.rd 0) (s.rd 1) tdt tdt) s) =
      upd mc tdt 1 (setR 1 (s'.r 0 + tdt • ax.wilson (s'.rd 0) (s'.rd 1) tdt tdt) s') := by
    rw [h1, h.r, h.rd]
  exact congrArg (fun s =>
    let s := clc mc 1 s
    if i < n - 1 then
      let s := setRd 0 (mix (s.rd 0) (s.rd 1) (ax.relax n i)) s
      setRd 1 (s.rd 0) s
    else s) h2

theorem andLoop_told (ax : Aux K E) (n : ℕ) (fac dt : K) (k : ℕ) (g0 : E × E) (h : Told mc s s') :
    Told mc (andLoop mc ax n fac dt k g0 s) (andLoop mc ax n fac dt k g0 s') := by
  cases k with
  | zero => exact h
  | succ k =>
    have h1 := (h.setR 1 (s.r 0 + (fac * dt) • s.rd 0)).upd (fac * dt) 1
    have h2 : upd mc (fac * dt) 1 (setR 1 (s.r 0 + (fac * dt) • s.rd 0) s) =
        upd mc (fac * dt) 1 (setR 1 (s'.r 0 + (fac * dt) • s'.rd 0) s') := by
      rw [h1, h.r, h.rd]
    have h3 : andLoop mc ax n fac dt (k + 1) g0 s = andLoop mc ax n fac dt (k + 1) g0 s' :=
      congrArg (fun s =>
        let i := n - (k + 1)
        let s := clc mc 0 s
        if i < n - 1 then
          let g0 := firstRes i (s.rd 1, s.rd 0) g0
          let c := ax.conv g0 (s.rd 1, s.rd 0)
          let s := setRd 0 (mix (s.rd 0) (s.rd 1) (ax.relax n i)) s
          let s := setRd 1 (s.rd 0) s
          if c then s else andLoop mc ax n fac dt k g0 s
        else s) h2
    rw [h3]
    exact Told.refl _

/-- Every step begins by telling the objects the state, so that it does not matter what they were told before. -/
theorem step_told (ax : Aux K E) (sc : Scheme K) (dt : K) (h : Told mc s s') :
    stepOf mc ax sc dt s = stepOf mc ax sc dt s' := by
  obtain ⟨t, tl, r, rd, n, m⟩ := s
  obtain ⟨t', tl', r', rd', n', m'⟩ := s'
  obtain ⟨h1, h2, h3, h4, h5, h6⟩ := h
  cases h1; cases h2; cases h3; cases h4; cases h5
  have h : Told mc (⟨t, tl, r, rd, n, m⟩ : Sim K E M) ⟨t, tl, r, rd, n, m'⟩ := ⟨rfl, rfl, rfl, rfl, rfl, h6⟩
  cases sc with
  | euler =>
    show euler mc dt _ = euler mc dt _
    unfold euler
    rw [h.upd]
  | leuler =>
    show leuler mc ax dt _ = leuler mc ax dt _
    unfold leuler
    rw [h.upd]
  | heun =>
    exact congrArg (fun s : Sim K E M =>
      let s := clc mc 0 s
      let s := setR 0 (s.r 0 + (1 / 2 * dt) • (s.rd 0 - s.rd 1)) s
      let s := addT dt s
      let s := upd mc dt 0 s
      fin dt s) (((h.setR 0 (r 0 + dt • rd 0)).setRd 1 (rd 0)).upd 0 0)
  | rk2 =>
    show rk2 mc dt _ = rk2 mc dt _
    unfold rk2
    rw [h.upd]
  | rk4 =>
    show rk4 mc dt _ = rk4 mc dt _
    unfold rk4
    rw [h.upd]
  | ab o =>
    show ab mc ax o dt _ = ab mc ax o dt _
    unfold ab
    rw [h.upd]
  | impEuler k fac =>
    have h1 := foldl_told (f := fun s i => impBody mc ax k fac dt i s) (fun s s' i h => impBody_told ax k fac dt i h) k
      ((h.addT (fac * dt)).setRd 1 (rd 0))
    show fin dt (upd mc dt 0 (addT _ (setR 0 (_ + dt • _) _))) = fin dt (upd mc dt 0 (addT _ (setR 0 (_ + dt • _) _)))
    refine (congrArg (fin dt) (((h1.setR 0 _).addT ((1 - fac) * dt)).upd dt 0)).trans ?_
    show fin dt (upd mc dt 0 (addT _ (setR 0 (_ + dt • _) _))) = fin dt (upd mc dt 0 (addT _ (setR 0 (_ + dt • _) _)))
    congr 5
    · exact congrFun h1.r 0
    · exact congrArg (dt • ·) (congrFun h1.rd 0)
  | anderson k fac =>
    have h1 := andLoop_told ax k fac dt k (0, 0) (h.addT (fac * dt))
    show fin dt (upd mc dt 0 (addT _ (setR 0 (_ + dt • _) _))) = fin dt (upd mc dt 0 (addT _ (setR 0 (_ + dt • _) _)))
    refine (congrArg (fin dt) (((h1.setR 0 _).addT ((1 - fac) * dt)).upd dt 0)).trans ?_
    show fin dt (upd mc dt 0 (addT _ (setR 0 (_ + dt • _) _))) = fin dt (upd mc dt 0 (addT _ (setR 0 (_ + dt • _) _)))
    congr 5
    · exact congrFun h1.r 0
    · exact congrArg (dt • ·) (congrFun h1.rd 0)
  | newmark k ga be =>
    have h1 := foldl_told (f := fun s i => newmarkBody mc ax k ga be dt i s)
      (fun s s' i h => newmarkBody_told ax k ga be dt i h) k (((h.setRd 1 (rd 0)).addT dt).setRd 2 (rd 0))
    have key : ∀ s s' : Sim K E M, Told mc s s' →
        (let s := setR 1 (s.r 0 + dt • ax.newmark ga be (s.rd 0) (s.rd 1) dt) s
         let s := setR 0 (s.r 1) s
         let s := setRd 0 (s.rd 1) s
         let s := upd mc dt 0 s
         fin dt s) =
        (let s := setR 1 (s'.r 0 + dt • ax.newmark ga be (s'.rd 0) (s'.rd 1) dt) s'
         let s := setR 0 (s.r 1) s
         let s := setRd 0 (s.rd 1) s
         let s := upd mc dt 0 s
         fin dt s) := by
      rintro ⟨t, tl, r, rd, n, m⟩ ⟨t', tl', r', rd', n', m'⟩ ⟨h1, h2, h3, h4, h5, h6⟩
      cases h1; cases h2; cases h3; cases h4; cases h5
      have h : Told mc (⟨t, tl, r, rd, n, m⟩ : Sim K E M) ⟨t, tl, r, rd, n, m'⟩ := ⟨rfl, rfl, rfl, rfl, rfl, h6⟩
      have h7 := (h.setR 1 (r 0 + dt • ax.newmark ga be (rd 0) (rd 1) dt)).setR 0
        ((setR 1 (r 0 + dt • ax.newmark ga be (rd 0) (rd 1) dt) (⟨t, tl, r, rd, n, m⟩ : Sim K E M)).r 1)
      exact congrArg (fin dt) ((h7.setRd 0 (rd 1)).upd dt 0)
    exact key _ _ h1
  | wilson k th =>
    have h1 := foldl_told (f := fun s i => wilsonBody mc ax k (th * dt) i s)
      (fun s s' i h => wilsonBody_told ax k (th * dt) i h) k ((h.addT (th * dt)).setRd 1 (rd 0))
    have key : ∀ s s' : Sim K E M, Told mc s s' →
        (let s := addT (-((1 - th) * dt)) s
         let s := setR 1 (s.r 0 + dt • ax.wilson (s.rd 0) (s.rd 1) dt (th * dt)) s
         let s := setR 0 (s.r 1) s
         let s := setRd 0 (s.rd 1) s
         let s := upd mc dt 0 s
         fin dt s) =
        (let s := addT (-((1 - th) * dt)) s'
         let s := setR 1 (s.r 0 + dt • ax.wilson (s.rd 0) (s.rd 1) dt (th * dt)) s
         let s := setR 0 (s.r 1) s
         let s := setRd 0 (s.rd 1) s
         let s := upd mc dt 0 s
         fin dt s) := by
      rintro ⟨t, tl, r, rd, n, m⟩ ⟨t', tl', r', rd', n', m'⟩ ⟨h1, h2, h3, h4, h5, h6⟩
      cases h1; cases h2; cases h3; cases h4; cases h5
      have h : Told mc (⟨t, tl, r, rd, n, m⟩ : Sim K E M) ⟨t, tl, r, rd, n, m'⟩ := ⟨rfl, rfl, rfl, rfl, rfl, h6⟩
      have h7 := ((h.addT (-((1 - th) * dt))).setR 1 (r 0 + dt • ax.wilson (rd 0) (rd 1) dt (th * dt))).setR 0
        ((setR 1 (r 0 + dt • ax.wilson (rd 0) (rd 1) dt (th * dt)) (⟨t, tl, r, rd, n, m⟩ : Sim K E M)).r 1)
      exact congrArg (fin dt) ((h7.setRd 0 (rd 1)).upd dt 0)
    exact key _ _ h1

end MD.Relate
