import Verif.Lemmas.Similar

/-!
# Lemmas: calls of two machines one after the other
-/

set_option linter.unusedSectionVars false

namespace MD.Whole

open MD.Time

section
variable {E M E' M' X : Type} [AddCommGroup E] [Module ℝ E] [AddCommGroup E'] [Module ℝ E']

/-- A call of a machine, with what is done before the steps. -/
noncomputable def callOn (mc : Machine ℝ E M) (ini : Asked → M → M) (ax : Aux ℝ E) (sc : Scheme ℝ) (dtM0 : ℝ) (fuel : ℕ)
    (s : Sim ℝ E M) (x : Asked) : Option (Sim ℝ E M) :=
  if x.dt ≤ 0 then some s
  else match outerStep (ε := Empty) dtM0 (next mc) (fun h s => .ok (stepOf mc ax sc h s)) fuel x.dt { s with m := ini x s.m } with
    | some (.ok e, _) => some e
    | _ => none

theorem calls_ok {ok : M → Prop} {mc : Machine ℝ E M} (hm : Relate.Remembers ok mc) (ax : Aux ℝ E) (sc : Scheme ℝ) {ini : Asked → M → M}
    (ho : ∀ x m, ok (ini x m) → ok m) (dtM0 : ℝ) (fuel : ℕ) (calls : List Asked) (s e : Sim ℝ E M)
    (he : calls.foldlM (callOn mc ini ax sc dtM0 fuel) s = some e) (hoe : ok e.m) : ok s.m := by
  induction calls generalizing s with
  | nil =>
    cases he
    exact hoe
  | cons x l ih =>
    rw [List.foldlM_cons] at he
    cases h1 : callOn mc ini ax sc dtM0 fuel s x with
    | none => rw [h1] at he; cases he
    | some e1 =>
      rw [h1] at he
      have h2 := ih e1 he
      unfold callOn at h1
      by_cases h0 : x.dt ≤ 0
      · rw [if_pos h0] at h1
        cases h1
        exact h2
      · rw [if_neg h0] at h1
        split at h1
        · rename_i e2 hs hr
          cases h1
          exact ho _ _ (Relate.call_ok hm ax sc dtM0 fuel _ _ _ _ hr h2)
        · cases h1

theorem same_calls {κ : ℝ} (hκ : 0 < κ) {ok : M → Prop} {mc : Machine ℝ E M} {mc' : Machine ℝ E' M'} {Rr Rd : E → E' → Prop} {Rm : M → M' → Prop}
    (hm : Relate.Alike κ ok mc mc' Rr Rd Rm) {ax : Aux ℝ E} {ax' : Aux ℝ E'} (ha : Relate.AuxAlike κ ax ax' Rr Rd) (sc : Scheme ℝ)
    (hsc : Relate.NotAnderson sc ∨ Relate.Ends ax ax' Rd) {ini : Asked → M → M} {ini' : Asked → M' → M'} {Rx : Asked → Asked → Prop}
    (hi : ∀ x x' m m', Rx x x' → Rm m m' → Rm (ini x m) (ini' x' m')) (hx : ∀ x x', Rx x x' → x'.dt = κ * x.dt)
    (ho : ∀ x m, ok (ini x m) → ok m) (dtM0 : ℝ) (fuel : ℕ) {calls calls' : List Asked} (hc : List.Forall₂ Rx calls calls')
    (s e : Sim ℝ E M) (s' : Sim ℝ E' M') (h : Relate.Same κ Rr Rd Rm (· = 0) s s')
    (he : calls.foldlM (callOn mc ini ax sc dtM0 fuel) s = some e) (hoe : ok e.m) :
    ok s.m ∧ ∃ e', calls'.foldlM (callOn mc' ini' ax' sc (κ * dtM0) fuel) s' = some e' ∧ Relate.Same κ Rr Rd Rm (· = 0) e e' := by
  induction hc generalizing s s' with
  | nil =>
    cases he
    exact ⟨hoe, s', rfl, h⟩
  | @cons x x' l l' hxx _ ih =>
    rw [List.foldlM_cons] at he
    cases h1 : callOn mc ini ax sc dtM0 fuel s x with
    | none => rw [h1] at he; cases he
    | some e1 =>
      rw [h1] at he
      have key : ∀ (h2 : ok e1.m), ok s.m ∧ ∃ e1', callOn mc' ini' ax' sc (κ * dtM0) fuel s' x' = some e1' ∧
          Relate.Same κ Rr Rd Rm (· = 0) e1 e1' := by
        intro h2
        unfold callOn at h1 ⊢
        have hd : x'.dt ≤ 0 ↔ x.dt ≤ 0 := by
          rw [hx _ _ hxx]
          exact ⟨fun h => not_lt.1 fun h' => absurd (mul_pos hκ h') (not_lt.2 h), fun h => mul_nonpos_of_nonneg_of_nonpos hκ.le h⟩
        by_cases h0 : x.dt ≤ 0
        · rw [if_pos h0] at h1
          rw [if_pos (hd.2 h0)]
          cases h1
          exact ⟨h2, s', rfl, h⟩
        · rw [if_neg h0] at h1
          rw [if_neg (fun h => h0 (hd.1 h))]
          split at h1
          · rename_i e2 hs hr
            cases h1
            obtain ⟨g, e3, h3, h4⟩ := Relate.same_call hκ hm ha sc hsc rfl fuel (hx _ _ hxx)
              (s := { s with m := ini x s.m }) (s' := { s' with m := ini' x' s'.m })
              ⟨h.t, h.tl, h.n, h.r, h.rd, hi _ _ _ _ hxx h.m⟩ _ _ hr h2
            rw [h3]
            exact ⟨ho _ _ g, e3, rfl, h4⟩
          · cases h1
      have h2 : ok e1.m := calls_ok ⟨hm.okU, hm.okE, hm.okN⟩ ax sc ho dtM0 fuel _ _ _ he hoe
      obtain ⟨g, e1', h3, h4⟩ := key h2
      obtain ⟨-, e', h5, h6⟩ := ih e1 e1' h4 he
      refine ⟨g, e', ?_, h6⟩
      rw [List.foldlM_cons, h3]
      exact h5

end

variable {Q FL FP FR FB Wt : Type} [AddCommGroup Q] [Module ℝ Q] {o : View Q FL FP FR FB Wt} {S S' : System Q FL FP FR FB Wt}

theorem call_callOn (ax : Aux ℝ (State Q)) (sc : Scheme ℝ) : call S ax sc = callOn (machine S) (initiate S) ax sc := by
  funext dtM0 fuel s x
  unfold call callOn
  split_ifs
  · rfl
  · generalize outerStep (K := ℝ) _ _ _ _ _ _ = y
    rcases y with _ | ⟨_ | _, _⟩ <;> rfl

theorem watchedCall_callOn (ax : Aux ℝ (State Q)) (sc : Scheme ℝ) : watchedCall o S ax sc =
    callOn (watch (OkState o S) (FitMem o S) (machine S)) (fun x p => (initiate S x p.1, p.2)) ax sc := by
  funext dtM0 fuel s x
  unfold watchedCall callOn
  dsimp only
  split_ifs
  · rfl
  · generalize outerStep (K := ℝ) _ _ _ _ _ _ = y
    rcases y with _ | ⟨_ | _, _⟩ <;> rfl

theorem aux_refl {E : Type} [AddCommGroup E] [Module ℝ E] (ax : Aux ℝ E) : Relate.AuxAlike 1 ax ax (· = ·) (· = ·) := by
  refine ⟨fun _ _ => rfl, ?_, ?_, ?_, ?_⟩
  · rintro ga be a _ b _ h rfl rfl
    rw [one_mul]
  · rintro a _ b _ ta h rfl rfl
    rw [one_mul, one_mul]
  · rintro a _ b _ rfl rfl
    rfl
  · rintro x a _ b _ rfl rfl
    rw [one_mul]

/-- The record changes nothing. -/
theorem watched_plain {E M : Type} [AddCommGroup E] [Module ℝ E] (good : E → Prop) (fit : M → Prop) (mc : Machine ℝ E M) :
    Relate.Alike (1 : ℝ) (fun _ => True) (watch good fit mc) mc (· = ·) (· = ·) (fun p m => p.1 = m) where
  zero := rfl
  add := by
    rintro a _ b _ rfl rfl
    rfl
  smul := by
    rintro x a _ rfl
    rfl
  move := by
    rintro x a _ b _ rfl rfl
    rw [one_mul]
  update := by
    rintro t tl e _ m _ rfl rfl
    rw [one_mul, one_mul]
    rfl
  rate := by
    rintro m _ rfl _
    rfl
  eval := by
    rintro m _ rfl _
    rfl
  next := by
    rintro m _ rfl
    rfl
  okU _ _ _ _ _ := trivial
  okE _ _ := trivial
  okN _ _ := trivial

/-- What the calls with the record do is what the calls do. -/
theorem watched_faithful (ax : Aux ℝ (State Q)) (sc : Scheme ℝ) (dtM0 : ℝ) (fuel : ℕ) (calls : List Asked)
    (s : Sim ℝ (State Q) (Mem Q FL FP FR FB)) (f : Prop) (w : Sim ℝ (State Q) (Mem Q FL FP FR FB × Prop))
    (he : calls.foldlM (watchedCall o S ax sc dtM0 fuel) ⟨s.t, s.tl, s.r, s.rd, s.n, (s.m, f)⟩ = some w) :
    ∃ e, calls.foldlM (call S ax sc dtM0 fuel) s = some e ∧ e.t = w.t ∧ e.tl = w.tl ∧ e.n = w.n ∧ e.r 0 = w.r 0 ∧ e.rd = w.rd ∧ e.m = w.m.1 := by
  rw [watchedCall_callOn] at he
  have hl : List.Forall₂ (fun x x' : Asked => x = x') calls calls := List.forall₂_same.2 fun _ _ => rfl
  obtain ⟨-, e, h1, h2⟩ := same_calls one_pos (watched_plain (OkState o S) (FitMem o S) (machine S)) (aux_refl ax) sc
    (.inr (by rintro ⟨a, b⟩ ⟨_, _⟩ ⟨c, d⟩ ⟨_, _⟩ rfl rfl rfl rfl; rfl)) (ini' := initiate S)
    (by rintro x _ m _ rfl rfl; rfl) (by rintro x _ rfl; rw [one_mul]) (fun _ _ _ => trivial) dtM0 fuel hl _ w s
    ⟨(one_mul _).symm, (one_mul _).symm, rfl, fun _ _ => rfl, fun _ => rfl, rfl⟩ he trivial
  rw [one_mul] at h1
  rw [call_callOn]
  exact ⟨e, h1, by rw [h2.t, one_mul], by rw [h2.tl, one_mul], h2.n, (h2.r 0 rfl).symm, funext fun k => (h2.rd k).symm, h2.m.symm⟩

end MD.Whole
