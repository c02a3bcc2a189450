import Verif.Props.FrameMotion
import Verif.Lemmas.Relate

/-!
# Two simulations of lines and points that go through related states
-/

namespace MD.Relate

open MD.Mooring MD.Moored MD.Time
open MD.Frame (auxOf call)

variable {κ : ℝ} {S S' : System} {ax ax' : Aux ℝ State} {Rr Rd : State → State → Prop} {Rm : Mem → Mem → Prop}
  {ok : Mem → Prop}

theorem moored_ok (hm : Remembers ok (machine S)) (okI : ∀ x m, ok (initiate S x m) → ok m) (ax : Aux ℝ State)
    (sc : Scheme ℝ) (dtM0 : ℝ) (fuel : ℕ) (calls : List ((ℕ → V × V) × ℝ)) (s e : Sim ℝ State Mem)
    (he : calls.foldlM (call S ax sc dtM0 fuel) s = some e) (ho : ok e.m) : ok s.m := by
  induction calls generalizing s with
  | nil =>
    cases he
    exact ho
  | cons x calls ih =>
    rw [List.foldlM_cons] at he
    cases h1 : call S ax sc dtM0 fuel s x with
    | none => rw [h1] at he; cases he
    | some e1 =>
      rw [h1] at he
      have h2 := ih e1 he
      unfold call at h1
      split at h1
      · rename_i hr
        cases h1
        exact okI _ _ (call_ok (s := { s with m := initiate S x.1 s.m }) hm ax sc dtM0 fuel _ _ _ hr h2)
      · cases h1

/-- What is asked of the coupled points is related by `C`, the time steps are `κ` times as long. -/
theorem moored_same (hκ : 0 < κ) (hm : Alike κ ok (machine S) (machine S') Rr Rd Rm) (ha : AuxAlike κ ax ax' Rr Rd)
    {C : (ℕ → V × V) → (ℕ → V × V) → Prop}
    (hI : ∀ x x' m m', C x x' → Rm m m' → Rm (initiate S x m) (initiate S' x' m'))
    (okI : ∀ x m, ok (initiate S x m) → ok m) (sc : Scheme ℝ) (hsc : NotAnderson sc ∨ Ends ax ax' Rd) {dtM0 dtM0' : ℝ}
    (hM : dtM0' = κ * dtM0) (fuel : ℕ) (calls calls' : List ((ℕ → V × V) × ℝ))
    (hc : List.Forall₂ (fun x x' => C x.1 x'.1 ∧ x'.2 = κ * x.2) calls calls') (s s' e : Sim ℝ State Mem)
    (h : Same κ Rr Rd Rm (· = 0) s s') (he : calls.foldlM (call S ax sc dtM0 fuel) s = some e) (ho : ok e.m) :
    ∃ e', calls'.foldlM (call S' ax' sc dtM0' fuel) s' = some e' ∧ Same κ Rr Rd Rm (· = 0) e e' := by
  induction hc generalizing s s' with
  | nil =>
    cases he
    exact ⟨s', rfl, h⟩
  | @cons x x' calls calls' hx hc ih =>
    rw [List.foldlM_cons] at he
    cases h1 : call S ax sc dtM0 fuel s x with
    | none => rw [h1] at he; cases he
    | some e1 =>
      rw [h1] at he
      have h2 := moored_ok hm.mem okI ax sc dtM0 fuel calls e1 e he ho
      unfold call at h1
      split at h1
      · rename_i hr
        cases h1
        obtain ⟨-, e2, h3, h4⟩ := same_call hκ hm ha sc hsc hM fuel hx.2
          (s := { s with m := initiate S x.1 s.m }) (s' := { s' with m := initiate S' x'.1 s'.m })
          ⟨h.t, h.tl, h.n, h.r, h.rd, hI _ _ _ _ hx.1 h.m⟩ _ _ hr h2
        obtain ⟨e', h5, h6⟩ := ih _ _ h4 he
        refine ⟨e', ?_, h6⟩
        rw [List.foldlM_cons]
        have : call S' ax' sc dtM0' fuel s' x' = some e2 := by
          unfold call
          rw [h3]
        rw [this]
        exact h5
      · cases h1

end MD.Relate
