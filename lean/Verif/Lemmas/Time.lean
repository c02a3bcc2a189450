import Verif.Model.Time
import Mathlib.Tactic.Module
import Mathlib.Tactic.Ring
import Mathlib.Tactic.FieldSimp
import Mathlib.Tactic.NormNum

set_option linter.unusedSimpArgs false

namespace MD.Time

variable {K E M : Type} [Field K] [AddCommGroup E] [Module K E]
variable (mc : Machine K E M) (ax : Aux K E)

theorem foldl_inv {α β : Type} (P : α → Prop) (f : α → β → α) (hf : ∀ s i, P s → P (f s i)) :
    ∀ (l : List β) (s : α), P s → P (l.foldl f s)
  | [], _, h => h
  | i :: l, s, h => foldl_inv P f hf l (f s i) (hf s i h)

theorem foldl_range_succ {α : Type} (f : α → ℕ → α) (n : ℕ) (s : α) :
    (List.range (n + 1)).foldl f s = f ((List.range n).foldl f s) n := by
  rw [List.range_succ, List.foldl_append]; rfl

theorem mix_self (a : E) (f : K) : mix a a f = a := by
  unfold mix; module

theorem mix_zero (f : K) : mix (0 : E) 0 f = 0 := mix_self 0 f

/-- quantities that the iteration bodies do not change -/
def Keep (s0 s : Sim K E M) : Prop := s.t = s0.t ∧ s.tl = s0.tl ∧ s.n = s0.n ∧ s.r 0 = s0.r 0

theorem impBody_keep (iters : ℕ) (fac dt : K) (i : ℕ) (s0 s : Sim K E M) (h : Keep s0 s) :
    Keep s0 (impBody mc ax iters fac dt i s) := by
  unfold impBody
  simp only
  split <;> simpa [Keep, upd, clc, setR, setRd, Function.update_apply] using h

theorem newmarkBody_keep (iters : ℕ) (g b dt : K) (i : ℕ) (s0 s : Sim K E M) (h : Keep s0 s) :
    Keep s0 (newmarkBody mc ax iters g b dt i s) := by
  unfold newmarkBody
  simp only
  split <;> simpa [Keep, upd, clc, setR, setRd, Function.update_apply] using h

theorem wilsonBody_keep (iters : ℕ) (tdt : K) (i : ℕ) (s0 s : Sim K E M) (h : Keep s0 s) :
    Keep s0 (wilsonBody mc ax iters tdt i s) := by
  unfold wilsonBody
  simp only
  split <;> simpa [Keep, upd, clc, setR, setRd, Function.update_apply] using h

theorem andLoop_keep (iters : ℕ) (fac dt : K) (k : ℕ) (g0 : E × E) (s0 s : Sim K E M) (h : Keep s0 s) :
    Keep s0 (andLoop mc ax iters fac dt k g0 s) := by
  induction k generalizing s g0 with
  | zero => exact h
  | succ k ih =>
    unfold andLoop
    simp only
    split
    · split
      · simpa [Keep, upd, clc, setR, setRd, Function.update_apply] using h
      · apply ih
        simpa [Keep, upd, clc, setR, setRd, Function.update_apply] using h
    · simpa [Keep, upd, clc, setR, setRd, Function.update_apply] using h

theorem impLoop_keep (iters : ℕ) (fac dt : K) (l : List ℕ) (s : Sim K E M) :
    Keep s (l.foldl (fun s i => impBody mc ax iters fac dt i s) s) :=
  foldl_inv (Keep s) _ (fun s' i h => impBody_keep mc ax iters fac dt i s s' h) l s
    ⟨rfl, rfl, rfl, rfl⟩

theorem newmarkLoop_keep (iters : ℕ) (g b dt : K) (l : List ℕ) (s : Sim K E M) :
    Keep s (l.foldl (fun s i => newmarkBody mc ax iters g b dt i s) s) :=
  foldl_inv (Keep s) _ (fun s' i h => newmarkBody_keep mc ax iters g b dt i s s' h) l s
    ⟨rfl, rfl, rfl, rfl⟩

theorem wilsonLoop_keep (iters : ℕ) (tdt : K) (l : List ℕ) (s : Sim K E M) :
    Keep s (l.foldl (fun s i => wilsonBody mc ax iters tdt i s) s) :=
  foldl_inv (Keep s) _ (fun s' i h => wilsonBody_keep mc ax iters tdt i s s' h) l s
    ⟨rfl, rfl, rfl, rfl⟩

theorem andLoop_keep' (iters : ℕ) (fac dt : K) (k : ℕ) (g0 : E × E) (s : Sim K E M) :
    Keep s (andLoop mc ax iters fac dt k g0 s) :=
  andLoop_keep mc ax iters fac dt k g0 s s ⟨rfl, rfl, rfl, rfl⟩

/-- net advance of the simulation time in one internal step -/
def advance : Scheme K → K → K
  | .wilson _ th, dt => (2 * th - 1) * dt
  | _, dt => dt

theorem step_time [CharZero K] (sc : Scheme K) (dt : K) (s : Sim K E M) :
    (stepOf mc ax sc dt s).t = s.t + advance sc dt ∧ (stepOf mc ax sc dt s).tl = s.tl + dt := by
  have h2 : (2 : K) ≠ 0 := two_ne_zero
  cases sc with
  | euler => exact ⟨rfl, rfl⟩
  | leuler => exact ⟨rfl, rfl⟩
  | heun => exact ⟨rfl, rfl⟩
  | rk2 =>
    refine ⟨?_, rfl⟩
    show s.t + 1 / 2 * dt + 1 / 2 * dt = s.t + dt
    field_simp; ring
  | rk4 =>
    refine ⟨?_, rfl⟩
    show s.t + 1 / 2 * dt + 1 / 2 * dt = s.t + dt
    field_simp; ring
  | ab order => exact ⟨rfl, rfl⟩
  | impEuler iters fac =>
    simp only [stepOf, impEuler, upd, clc, setR, fin, addT, advance]
    obtain ⟨h1, h2, -, -⟩ := impLoop_keep mc ax iters fac dt (List.range iters)
      (setRd 1 ((addT (fac * dt) s).rd 0) (addT (fac * dt) s))
    simp only [addT] at h1 h2
    rw [h1, h2]
    exact ⟨by simp only [setRd, addT]; ring, rfl⟩
  | anderson iters fac =>
    simp only [stepOf, anderson, upd, clc, setR, fin, addT, advance]
    obtain ⟨h1, h2, -, -⟩ := andLoop_keep' mc ax iters fac dt iters (0, 0) (addT (fac * dt) s)
    simp only [addT] at h1 h2
    rw [h1, h2]
    exact ⟨by ring, rfl⟩
  | newmark iters g b =>
    simp only [stepOf, newmark, upd, clc, setR, setRd, fin, addT, advance]
    obtain ⟨h1, h2, -, -⟩ := newmarkLoop_keep mc ax iters g b dt (List.range iters)
      (setRd 2 (s.rd 0) (addT dt (setRd 1 (s.rd 0) s)))
    simp only [addT, setRd] at h1 h2
    simp only [Function.update_apply, if_neg (show (0:ℕ) ≠ 1 by decide)]
    exact ⟨h1, by rw [h2]⟩
  | wilson iters th =>
    simp only [stepOf, wilson, upd, clc, setR, setRd, fin, addT, advance]
    obtain ⟨h1, h2, -, -⟩ := wilsonLoop_keep mc ax iters (th * dt) (List.range iters)
      (setRd 1 (s.rd 0) (addT (th * dt) s))
    simp only [addT, setRd] at h1 h2
    rw [h1, h2]
    exact ⟨by ring, rfl⟩

end MD.Time
