import Verif.Props.Time

/-!
# What the objects see during an internal step

The sequence of local times sent to the objects by each scheme.
-/

set_option linter.unusedSimpArgs false
set_option linter.unusedSectionVars false

namespace MD.Time

variable {F E M : Type} [Field F] [LinearOrder F] [IsStrictOrderedRing F] [AddCommGroup E] [Module F E]
variable (mc : Machine F E M) (ax : Aux F E)

/-- parameters of the implicit schemes for which the local times sent to the
objects stay inside the step (all those that can be selected but Wilson's) -/
def Inside : Scheme F → Prop
  | .impEuler _ fac | .anderson _ fac => 0 ≤ fac ∧ fac ≤ 1
  | .wilson _ _ => False
  | _ => True

/-- A property of (latest local time, memory of the objects) kept by evaluations and
by updates with local times that do not decrease and are inside the step is kept by
the step. -/
theorem step_path (P0 : M → Prop) (P : F → M → Prop) (sc : Scheme F) (hsc : Inside sc) (dt : F) (hdt : 0 ≤ dt)
    (s : Sim F E M)
    (hu : ∀ τ τ' t e m, s.tl ≤ τ → τ ≤ τ' → τ' ≤ s.tl + dt → P τ m → P τ' (mc.update t τ' e m))
    (hu0 : ∀ τ' t e m, s.tl ≤ τ' → τ' ≤ s.tl + dt → P0 m → P τ' (mc.update t τ' e m))
    (he : ∀ τ m, P τ m → P τ (mc.eval m).2) (h0 : P0 s.m) :
    P (s.tl + dt) (stepOf mc ax sc dt s).m := by
  have ha : s.tl ≤ s.tl + 0 := by linarith
  have hb : s.tl + 0 ≤ s.tl + dt := by linarith
  have hc : s.tl ≤ s.tl + dt := by linarith
  have hh : s.tl ≤ s.tl + 1 / 2 * dt := by linarith
  have hh' : s.tl + 1 / 2 * dt ≤ s.tl + dt := by linarith
  cases sc with
  | euler => exact hu _ _ _ _ _ ha hb le_rfl (he _ _ (hu0 _ _ _ _ ha hb h0))
  | leuler => exact hu _ _ _ _ _ ha hb le_rfl (he _ _ (hu0 _ _ _ _ ha hb h0))
  | heun => exact hu _ _ _ _ _ ha hb le_rfl (he _ _ (hu0 _ _ _ _ ha hb h0))
  | ab order => exact hu _ _ _ _ _ ha hb le_rfl (he _ _ (hu0 _ _ _ _ ha hb h0))
  | rk2 =>
    exact hu _ _ _ _ _ hh hh' le_rfl (he _ _ (hu _ _ _ _ _ ha (by linarith) hh'
      (he _ _ (hu0 _ _ _ _ ha hb h0))))
  | rk4 =>
    exact hu _ _ _ _ _ hc le_rfl le_rfl (he _ _ (hu _ _ _ _ _ hh hh' le_rfl
      (he _ _ (hu _ _ _ _ _ hh le_rfl hh' (he _ _ (hu _ _ _ _ _ ha (by linarith) hh'
      (he _ _ (hu0 _ _ _ _ ha hb h0))))))))
  | impEuler iters fac =>
    obtain ⟨f0, f1⟩ := hsc
    have hf0 : 0 ≤ fac * dt := mul_nonneg f0 hdt
    have hf1 : fac * dt ≤ dt := by nlinarith
    have hl := foldl_inv (fun s' : Sim F E M => s'.tl = s.tl ∧ (P0 s'.m ∨ ∃ τ, s.tl ≤ τ ∧ τ ≤ s.tl + fac * dt ∧
        P τ s'.m)) (fun s i => impBody mc ax iters fac dt i s) (by
        rintro s' i ⟨h1, hq⟩
        unfold impBody
        simp only
        have key : P (s.tl + fac * dt) (clc mc 0 (upd mc (fac * dt) 1
            (setR 1 (s'.r 0 + (fac * dt) • s'.rd 0) s'))).m := by
          simp only [clc, upd, setR]
          rw [h1]
          rcases hq with hq | ⟨τ, h2, h3, h4⟩
          · exact he _ _ (hu0 _ _ _ _ (by linarith) (by linarith) hq)
          · exact he _ _ (hu _ _ _ _ _ h2 h3 (by linarith) h4)
        split
        · exact ⟨h1, Or.inr ⟨_, by linarith, le_rfl, key⟩⟩
        · exact ⟨h1, Or.inr ⟨_, by linarith, le_rfl, key⟩⟩)
      (List.range iters) (setRd 1 ((addT (fac * dt) s).rd 0) (addT (fac * dt) s))
      ⟨rfl, Or.inl h0⟩
    obtain ⟨h1, hq⟩ := hl
    simp only [stepOf, impEuler]
    simp only [upd, fin, addT, setR] at h1 hq ⊢
    rw [h1]
    rcases hq with hq | ⟨τ, h2, h3, h4⟩
    · exact hu0 _ _ _ _ hc le_rfl hq
    · exact hu _ _ _ _ _ h2 (by linarith) le_rfl h4
  | anderson iters fac =>
    obtain ⟨f0, f1⟩ := hsc
    have hf0 : 0 ≤ fac * dt := mul_nonneg f0 hdt
    have hf1 : fac * dt ≤ dt := by nlinarith
    have hl : ∀ (k : ℕ) (g0 : E × E) (s' : Sim F E M), (s'.tl = s.tl ∧ (P0 s'.m ∨ ∃ τ, s.tl ≤ τ ∧ τ ≤ s.tl + fac * dt ∧
        P τ s'.m)) → ((andLoop mc ax iters fac dt k g0 s').tl = s.tl ∧ (P0 (andLoop mc ax iters fac dt k g0 s').m ∨ ∃ τ, s.tl ≤ τ ∧
        τ ≤ s.tl + fac * dt ∧ P τ (andLoop mc ax iters fac dt k g0 s').m)) := by
      intro k
      induction k with
      | zero => exact fun g0 s' h => h
      | succ k ih =>
        rintro g0 s' ⟨h1, hq⟩
        have key : P (s.tl + fac * dt) (clc mc 0 (upd mc (fac * dt) 1
            (setR 1 (s'.r 0 + (fac * dt) • s'.rd 0) s'))).m := by
          simp only [clc, upd, setR]
          rw [h1]
          rcases hq with hq | ⟨τ, h2, h3, h4⟩
          · exact he _ _ (hu0 _ _ _ _ (by linarith) (by linarith) hq)
          · exact he _ _ (hu _ _ _ _ _ h2 h3 (by linarith) h4)
        unfold andLoop
        simp only
        split
        · split
          · exact ⟨h1, Or.inr ⟨_, by linarith, le_rfl, key⟩⟩
          · apply ih
            exact ⟨h1, Or.inr ⟨_, by linarith, le_rfl, key⟩⟩
        · exact ⟨h1, Or.inr ⟨_, by linarith, le_rfl, key⟩⟩
    obtain ⟨h1, hq⟩ := hl iters (0, 0) (addT (fac * dt) s) ⟨rfl, Or.inl h0⟩
    simp only [stepOf, anderson]
    simp only [upd, fin, addT, setR] at h1 hq ⊢
    rw [h1]
    rcases hq with hq | ⟨τ, h2, h3, h4⟩
    · exact hu0 _ _ _ _ hc le_rfl hq
    · exact hu _ _ _ _ _ h2 (by linarith) le_rfl h4
  | newmark iters g b =>
    have hl := foldl_inv (fun s' : Sim F E M => s'.tl = s.tl ∧ (P0 s'.m ∨ ∃ τ, s.tl ≤ τ ∧ τ ≤ s.tl + dt ∧
        P τ s'.m)) (fun s i => newmarkBody mc ax iters g b dt i s) (by
        rintro s' i ⟨h1, hq⟩
        unfold newmarkBody
        simp only
        have key : P (s.tl + dt) (clc mc 1 (upd mc dt 1
            (setR 1 (s'.r 0 + dt • ax.newmark g b (s'.rd 0) (s'.rd 1) dt) s'))).m := by
          simp only [clc, upd, setR]
          rw [h1]
          rcases hq with hq | ⟨τ, h2, h3, h4⟩
          · exact he _ _ (hu0 _ _ _ _ (by linarith) (by linarith) hq)
          · exact he _ _ (hu _ _ _ _ _ h2 h3 (by linarith) h4)
        split
        · exact ⟨h1, Or.inr ⟨_, by linarith, le_rfl, key⟩⟩
        · exact ⟨h1, Or.inr ⟨_, by linarith, le_rfl, key⟩⟩)
      (List.range iters) (setRd 2 ((addT dt (setRd 1 (s.rd 0) s)).rd 0) (addT dt (setRd 1 (s.rd 0) s)))
      ⟨rfl, Or.inl h0⟩
    obtain ⟨h1, hq⟩ := hl
    simp only [stepOf, newmark]
    simp only [upd, fin, addT, setR, setRd] at h1 hq ⊢
    rw [h1]
    rcases hq with hq | ⟨τ, h2, h3, h4⟩
    · exact hu0 _ _ _ _ hc le_rfl hq
    · exact hu _ _ _ _ _ h2 (by linarith) le_rfl h4
  | wilson iters th => exact hsc.elim

/-- Wilson's scheme sends `s.tl + θ dt` any number of times and then `s.tl + dt`. -/
theorem wilson_path (P0 : M → Prop) (P : F → M → Prop) (iters : ℕ) (th dt : F) (s : Sim F E M)
    (hu : ∀ τ τ' t e m, τ = s.tl + th * dt → (τ' = s.tl + th * dt ∨ τ' = s.tl + dt) →
      P τ m → P τ' (mc.update t τ' e m))
    (hu0 : ∀ τ' t e m, (τ' = s.tl + th * dt ∨ τ' = s.tl + dt) → P0 m → P τ' (mc.update t τ' e m))
    (he : ∀ τ m, P τ m → P τ (mc.eval m).2) (h0 : P0 s.m) :
    P (s.tl + dt) (stepOf mc ax (.wilson iters th) dt s).m := by
  have hl := foldl_inv (fun s' : Sim F E M => s'.tl = s.tl ∧ (P0 s'.m ∨ P (s.tl + th * dt) s'.m)) (fun s i => wilsonBody mc ax iters (th * dt) i s) (by
      rintro s' i ⟨h1, hq⟩
      unfold wilsonBody
      simp only
      have key : P (s.tl + th * dt) (clc mc 1 (upd mc (th * dt) 1
          (setR 1 (s'.r 0 + (th * dt) • ax.wilson (s'.rd 0) (s'.rd 1) (th * dt) (th * dt)) s'))).m := by
        simp only [clc, upd, setR]
        rw [h1]
        rcases hq with hq | hq
        · exact he _ _ (hu0 _ _ _ _ (Or.inl rfl) hq)
        · exact he _ _ (hu _ _ _ _ _ rfl (Or.inl rfl) hq)
      split
      · exact ⟨h1, Or.inr key⟩
      · exact ⟨h1, Or.inr key⟩)
    (List.range iters) (setRd 1 ((addT (th * dt) s).rd 0) (addT (th * dt) s))
    ⟨rfl, Or.inl h0⟩
  obtain ⟨h1, hq⟩ := hl
  simp only [stepOf, wilson]
  simp only [upd, fin, addT, setR, setRd] at h1 hq ⊢
  rw [h1]
  rcases hq with hq | hq
  · exact hu0 _ _ _ _ (Or.inr rfl) hq
  · exact hu _ _ _ _ _ rfl (Or.inr rfl) hq

/-- the same for a list of internal steps, from the local time `s.tl` to the total -/
theorem runs_path (P : F → M → Prop) (sc : Scheme F) (dt : F)
    (hstep : ∀ (s : Sim F E M) (h : F), 0 < h → 0 ≤ s.tl → s.tl + h ≤ dt → P s.tl s.m →
      P (s.tl + h) (stepOf mc ax sc h s).m) (hs : List F) (hpos : ∀ h ∈ hs, 0 < h)
    (s s' : Sim F E M) (h0 : 0 ≤ s.tl) (hsum : s.tl + hs.sum = dt) (hP : P s.tl s.m)
    (hr : runSteps (ε := Empty) (fun h s => .ok (stepOf mc ax sc h s)) hs s = .ok s') :
    P dt s'.m := by
  induction hs generalizing s with
  | nil =>
    cases hr
    simp only [List.sum_nil, add_zero] at hsum
    rw [← hsum]; exact hP
  | cons h l ih =>
    have hh := hpos h (by simp)
    have hl : 0 ≤ l.sum := List.sum_nonneg fun a ha => (hpos a (by simp [ha])).le
    simp only [List.sum_cons] at hsum
    have htl := (step_time mc ax sc h s).2
    refine ih (fun a ha => hpos a (by simp [ha])) (stepOf mc ax sc h s) (by rw [htl]; linarith)
      (by rw [htl]; linarith) ?_ hr
    rw [htl]
    exact hstep s h hh h0 (by linarith) hP

variable [Archimedean F]

/-- and for a whole call of `MoorDyn_Step`. -/
theorem outer_path (P0 : M → Prop) (P : F → M → Prop) (sc : Scheme F) (dtM0 : F) (h0 : 0 < dtM0)
    (dt : F) (hdt : 0 < dt) (s : Sim F E M)
    (hstep0 : ∀ (s : Sim F E M) (h : F), 0 < h → s.tl = 0 → h ≤ dt → P0 s.m →
      P h (stepOf mc ax sc h s).m)
    (hstep : ∀ (s : Sim F E M) (h : F), 0 < h → 0 ≤ s.tl → s.tl + h ≤ dt → P s.tl s.m →
      P (s.tl + h) (stepOf mc ax sc h s).m) (hP : P0 (mc.next s.m)) :
    ∃ fuel s' hs, outerStep (ε := Empty) dtM0 (next mc) (fun h s => .ok (stepOf mc ax sc h s))
        fuel dt s = some (.ok s', hs) ∧ P dt s'.m := by
  obtain ⟨fuel, r, hs, h1, h2, h3, -⟩ := C06_step_integrates_dt (ε := Empty) dtM0 h0 (next mc)
    (fun h s => .ok (stepOf mc ax sc h s)) dt hdt s
  cases r with
  | error e => exact e.elim
  | ok s' =>
    obtain ⟨hsum, hrun⟩ := h3 s' rfl
    refine ⟨fuel, s', hs, h1, ?_⟩
    have hpos : ∀ h ∈ hs.reverse, 0 < h := fun h hh => (h2 h (by simpa using hh)).1
    rw [← List.sum_reverse] at hsum
    revert hrun hpos hsum
    generalize hs.reverse = l
    intro hsum hrun hpos
    cases l with
    | nil => simp at hsum; linarith
    | cons h l =>
      have hl : 0 ≤ l.sum := List.sum_nonneg fun a ha => (hpos a (by simp [ha])).le
      simp only [List.sum_cons] at hsum
      have htl := (step_time mc ax sc h (next mc s)).2
      have htl' : (stepOf mc ax sc h (next mc s)).tl = h := by rw [htl]; exact zero_add h
      have hh := hpos h (by simp)
      refine runs_path mc ax P sc dt hstep l (fun a ha => hpos a (by simp [ha]))
        (stepOf mc ax sc h (next mc s)) s' (by rw [htl']; exact hh.le) (by rw [htl']; exact hsum) ?_ hrun
      rw [htl']
      exact hstep0 _ h hh rfl (by linarith) hP

end MD.Time
