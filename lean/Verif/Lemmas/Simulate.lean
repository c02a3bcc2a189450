import Verif.Model.Time
import Mathlib.Algebra.Module.LinearMap.Defs
import Mathlib.Algebra.Module.Pi
import Mathlib.Tactic.Abel

/-!
# Two simulations that do the same
-/

set_option linter.unusedSimpArgs false
set_option linter.unusedSectionVars false
set_option linter.unusedVariables false

namespace MD.Frame

section schemes

open MD.Time

variable {K E E' M M' : Type} [Field K] [AddCommGroup E] [Module K E] [AddCommGroup E'] [Module K E']

/-! ## Two simulations that do the same -/

/-- Rates are related by a linear map `g`, states by `g` and a shift `c`, as long as nothing has happened that
`ok` excludes; what has happened is remembered. -/
structure AlikeIf (ok : M → Prop) (mc : Machine K E M) (mc' : Machine K E' M') (g : E →ₗ[K] E') (c : E')
    (Rm : M → M' → Prop) : Prop where
  update : ∀ t tl e m m', Rm m m' → Rm (mc.update t tl e m) (mc'.update t tl (g e + c) m')
  rate : ∀ m m', Rm m m' → ok (mc.eval m).2 → (mc'.eval m').1 = g (mc.eval m).1
  eval : ∀ m m', Rm m m' → ok (mc.eval m).2 → Rm (mc.eval m).2 (mc'.eval m').2
  next : ∀ m m', Rm m m' → Rm (mc.next m) (mc'.next m')
  okU : ∀ t tl e m, ok (mc.update t tl e m) → ok m
  okE : ∀ m, ok (mc.eval m).2 → ok m
  okN : ∀ m, ok (mc.next m) → ok m

/-- What a scheme uses besides. -/
structure AuxAlike (ax : Aux K E) (ax' : Aux K E') (g : E →ₗ[K] E') (c : E') : Prop where
  relax : ∀ i j, ax'.relax i j = ax.relax i j
  newmark : ∀ ga be a b h, ax'.newmark ga be (g a) (g b) h = g (ax.newmark ga be a b h)
  wilson : ∀ a b ta h, ax'.wilson (g a) (g b) ta h = g (ax.wilson a b ta h)
  sel : ∀ a b, ax'.sel (g a) (g b) = g (ax.sel a b)
  ssub : ∀ a b, ax'.ssub (g a + c) (g b) = g (ax.ssub a b) + c

/-- The two simulations, where `P` are the states in use. -/
structure Same (g : E →ₗ[K] E') (c : E') (Rm : M → M' → Prop) (P : ℕ → Prop) (s : Sim K E M)
    (s' : Sim K E' M') : Prop where
  t : s'.t = s.t
  tl : s'.tl = s.tl
  n : s'.n = s.n
  r : ∀ k, P k → s'.r k = g (s.r k) + c
  rd : ∀ k, s'.rd k = g (s.rd k)
  m : Rm s.m s'.m

/-- The schemes that stop iterating when the mean of the absolute values of the residues is small are
left out. -/
def NotAnderson : Scheme K → Prop
  | .anderson _ _ => False
  | _ => True

variable {mc : Machine K E M} {mc' : Machine K E' M'} {ax : Aux K E} {ax' : Aux K E'}
  {g : E →ₗ[K] E'} {c : E'} {Rm : M → M' → Prop} {P : ℕ → Prop} {ok : M → Prop} {s : Sim K E M} {s' : Sim K E' M'}

theorem same_upd (hm : AlikeIf ok mc mc' g c Rm) (h : Same g c Rm P s s') (x : K) (k : ℕ) (hk : P k) :
    Same g c Rm P (upd mc x k s) (upd mc' x k s') := by
  refine ⟨h.t, h.tl, h.n, h.r, h.rd, ?_⟩
  show Rm (mc.update _ _ _ _) (mc'.update _ _ _ _)
  rw [h.t, h.tl, h.r k hk]
  exact hm.update _ _ _ _ _ h.m

theorem same_setR (h : Same g c Rm P s s') (k : ℕ) (e : E) (e' : E') (he : e' = g e + c) :
    Same g c Rm (fun j => j = k ∨ P j) (setR k e s) (setR k e' s') := by
  refine ⟨h.t, h.tl, h.n, ?_, h.rd, h.m⟩
  intro j hj
  simp only [setR, Function.update_apply]
  split_ifs with h1
  · exact he
  · exact h.r j (by tauto)

theorem same_setRd (h : Same g c Rm P s s') (k : ℕ) (e : E) (e' : E') (he : e' = g e) :
    Same g c Rm P (setRd k e s) (setRd k e' s') := by
  refine ⟨h.t, h.tl, h.n, h.r, ?_, h.m⟩
  intro j
  simp only [setRd, Function.update_apply]
  split_ifs with h1
  · exact he
  · exact h.rd j

theorem same_clc (hm : AlikeIf ok mc mc' g c Rm) (h : Same g c Rm P s s') (k : ℕ)
    (ho : ok (mc.eval s.m).2) : Same g c Rm P (clc mc k s) (clc mc' k s') := by
  refine ⟨h.t, h.tl, h.n, h.r, ?_, hm.eval _ _ h.m ho⟩
  intro j
  simp only [clc, Function.update_apply]
  split_ifs with h1
  · exact hm.rate _ _ h.m ho
  · exact h.rd j

theorem same_clcSel (hm : AlikeIf ok mc mc' g c Rm) (ha : AuxAlike ax ax' g c) (h : Same g c Rm P s s') (k : ℕ)
    (ho : ok (mc.eval s.m).2) : Same g c Rm P (clcSel mc ax k s) (clcSel mc' ax' k s') := by
  refine ⟨h.t, h.tl, h.n, h.r, ?_, hm.eval _ _ h.m ho⟩
  intro j
  simp only [clcSel, Function.update_apply]
  split_ifs with h1
  · rw [hm.rate _ _ h.m ho, h.rd, ha.sel]
  · exact h.rd j

theorem same_addT (h : Same g c Rm P s s') (x : K) : Same g c Rm P (addT x s) (addT x s') :=
  ⟨congrArg (· + x) h.t, h.tl, h.n, h.r, h.rd, h.m⟩

theorem same_fin (h : Same g c Rm P s s') (x : K) : Same g c Rm P (fin x s) (fin x s') :=
  ⟨h.t, congrArg (· + x) h.tl, h.n, h.r, h.rd, h.m⟩

theorem same_weak {P' : ℕ → Prop} (h : Same g c Rm P s s') (hP : ∀ k, P' k → P k) : Same g c Rm P' s s' :=
  ⟨h.t, h.tl, h.n, fun k hk => h.r k (hP k hk), h.rd, h.m⟩

theorem same_move (h : Same g c Rm P s s') (k j : ℕ) (hk : P k) (x : K) :
    s'.r k + x • s'.rd j = g (s.r k + x • s.rd j) + c := by
  rw [h.r k hk, h.rd, map_add, map_smul]
  abel

theorem same_newmark (ha : AuxAlike ax ax' g c) (h : Same g c Rm P s s') (h0 : P 0) (ga be x : K) :
    s'.r 0 + x • ax'.newmark ga be (s'.rd 0) (s'.rd 1) x =
      g (s.r 0 + x • ax.newmark ga be (s.rd 0) (s.rd 1) x) + c := by
  rw [h.r 0 h0, h.rd, h.rd, ha.newmark, map_add, map_smul]
  abel

theorem same_wilson (ha : AuxAlike ax ax' g c) (h : Same g c Rm P s s') (h0 : P 0) (x y z : K) :
    s'.r 0 + x • ax'.wilson (s'.rd 0) (s'.rd 1) y z =
      g (s.r 0 + x • ax.wilson (s.rd 0) (s.rd 1) y z) + c := by
  rw [h.r 0 h0, h.rd, h.rd, ha.wilson, map_add, map_smul]
  abel

theorem same_mix (a b : E) (f : K) : mix (g a) (g b) f = g (mix a b f) := by
  unfold mix
  rw [map_add, map_smul, map_smul]

theorem same_relax (ha : AuxAlike ax ax' g c) (h : Same g c Rm P s s') (j k n i : ℕ) :
    mix (s'.rd j) (s'.rd k) (ax'.relax n i) = g (mix (s.rd j) (s.rd k) (ax.relax n i)) := by
  rw [h.rd, h.rd, same_mix, ha.relax]

theorem same_foldl {α : Type} (f : Sim K E M → α → Sim K E M) (f' : Sim K E' M' → α → Sim K E' M')
    (hk : ∀ s i, ok (f s i).m → ok s.m)
    (hf : ∀ s s' i, Same g c Rm P s s' → ok (f s i).m → Same g c Rm P (f s i) (f' s' i)) (l : List α)
    (h : Same g c Rm P s s') (ho : ok (l.foldl f s).m) :
    ok s.m ∧ Same g c Rm P (l.foldl f s) (l.foldl f' s') := by
  have hl : ∀ (l : List α) (s : Sim K E M), ok (l.foldl f s).m → ok s.m := by
    intro l
    induction l with
    | nil => exact fun _ h => h
    | cons i l ih => exact fun s h => hk s i (ih _ h)
  refine ⟨hl l s ho, ?_⟩
  induction l generalizing s s' with
  | nil => exact h
  | cons i l ih => exact ih (hf _ _ _ h (hl l _ ho)) ho

theorem same_shift (h : Same g c Rm P s s') : Same g c Rm P (Time.shift s) (Time.shift s') := by
  unfold Time.shift
  have h1 := same_setRd h 1 (s.rd 0) (s'.rd 0) (h.rd 0)
  have h2 := same_setRd h1 2 _ _ (h1.rd 1)
  have h3 := same_setRd h2 3 _ _ (h2.rd 2)
  exact same_setRd h3 4 _ _ (h3.rd 3)

theorem same_ab (ha : AuxAlike ax ax' g c) (n : ℕ) (dt : K) (r : E) (rd : ℕ → E) :
    abFormula ax'.ssub n dt (g r + c) (fun k => g (rd k)) = g (abFormula ax.ssub n dt r rd) + c := by
  have e : ∀ (a b : E), g a + c + g b = g (a + b) + c := by
    intro a b
    rw [map_add]
    abel
  unfold abFormula
  split <;> simp only [← map_smul, e, ha.ssub]

theorem impBody_m (mc : Machine K E M) (ax : Aux K E) (iters : ℕ) (fac dt : K) (i : ℕ) (s : Sim K E M) :
    (impBody mc ax iters fac dt i s).m = (clc mc 0 (upd mc (fac * dt) 1 (setR 1 (s.r 0 + (fac * dt) • s.rd 0) s))).m := by
  unfold impBody
  dsimp only
  split_ifs <;> rfl

theorem same_impBody (hm : AlikeIf ok mc mc' g c Rm) (ha : AuxAlike ax ax' g c) (iters : ℕ) (fac dt : K) (i : ℕ)
    (h : Same g c Rm (· = 0) s s') (ho : ok (impBody mc ax iters fac dt i s).m) :
    Same g c Rm (· = 0) (impBody mc ax iters fac dt i s) (impBody mc' ax' iters fac dt i s') := by
  have h1 := same_setR h 1 _ _ (same_move h 0 0 rfl (fac * dt))
  have h2 := same_upd hm h1 (fac * dt) 1 (Or.inl rfl)
  rw [impBody_m] at ho
  have h3 := same_clc hm h2 0 ho
  unfold impBody
  dsimp only
  by_cases hi : i < iters - 1
  · rw [if_pos hi, if_pos hi]
    have h4 := same_setRd h3 0 _ _ (same_relax ha h3 0 1 iters i)
    exact same_weak (same_setRd h4 1 _ _ (h4.rd 0)) fun k hk => Or.inr hk
  · rw [if_neg hi, if_neg hi]
    exact same_weak h3 fun k hk => Or.inr hk

theorem newmarkBody_m (mc : Machine K E M) (ax : Aux K E) (iters : ℕ) (ga be dt : K) (i : ℕ) (s : Sim K E M) :
    (newmarkBody mc ax iters ga be dt i s).m = (clc mc 1 (upd mc dt 1 (setR 1 (s.r 0 + dt • ax.newmark ga be (s.rd 0) (s.rd 1) dt) s))).m := by
  unfold newmarkBody
  dsimp only
  split_ifs <;> rfl

theorem same_newmarkBody (hm : AlikeIf ok mc mc' g c Rm) (ha : AuxAlike ax ax' g c) (iters : ℕ) (ga be dt : K)
    (i : ℕ) (h : Same g c Rm (· = 0) s s') (ho : ok (newmarkBody mc ax iters ga be dt i s).m) :
    Same g c Rm (· = 0) (newmarkBody mc ax iters ga be dt i s) (newmarkBody mc' ax' iters ga be dt i s') := by
  have h1 := same_setR h 1 _ _ (same_newmark ha h rfl ga be dt)
  have h2 := same_upd hm h1 dt 1 (Or.inl rfl)
  rw [newmarkBody_m] at ho
  have h3 := same_clc hm h2 1 ho
  unfold newmarkBody
  dsimp only
  by_cases hi : i < iters - 1
  · rw [if_pos hi, if_pos hi]
    have h4 := same_setRd h3 1 _ _ (same_relax ha h3 1 2 iters i)
    exact same_weak (same_setRd h4 2 _ _ (h4.rd 1)) fun k hk => Or.inr hk
  · rw [if_neg hi, if_neg hi]
    exact same_weak h3 fun k hk => Or.inr hk

theorem wilsonBody_m (mc : Machine K E M) (ax : Aux K E) (iters : ℕ) (dt : K) (i : ℕ) (s : Sim K E M) :
    (wilsonBody mc ax iters dt i s).m = (clc mc 1 (upd mc dt 1 (setR 1 (s.r 0 + dt • ax.wilson (s.rd 0) (s.rd 1) dt dt) s))).m := by
  unfold wilsonBody
  dsimp only
  split_ifs <;> rfl

theorem same_wilsonBody (hm : AlikeIf ok mc mc' g c Rm) (ha : AuxAlike ax ax' g c) (iters : ℕ) (dt : K)
    (i : ℕ) (h : Same g c Rm (· = 0) s s') (ho : ok (wilsonBody mc ax iters dt i s).m) :
    Same g c Rm (· = 0) (wilsonBody mc ax iters dt i s) (wilsonBody mc' ax' iters dt i s') := by
  have h1 := same_setR h 1 _ _ (same_wilson ha h rfl dt dt dt)
  have h2 := same_upd hm h1 dt 1 (Or.inl rfl)
  rw [wilsonBody_m] at ho
  have h3 := same_clc hm h2 1 ho
  unfold wilsonBody
  dsimp only
  by_cases hi : i < iters - 1
  · rw [if_pos hi, if_pos hi]
    have h4 := same_setRd h3 0 _ _ (same_relax ha h3 0 1 iters i)
    exact same_weak (same_setRd h4 1 _ _ (h4.rd 0)) fun k hk => Or.inr hk
  · rw [if_neg hi, if_neg hi]
    exact same_weak h3 fun k hk => Or.inr hk

theorem ok_andLoop (hm : AlikeIf ok mc mc' g c Rm) (iters : ℕ) (fac dt : K) (k : ℕ) (g0 : E × E) (s : Sim K E M)
    (ho : ok (andLoop mc ax iters fac dt k g0 s).m) : ok s.m := by
  induction k generalizing s g0 with
  | zero => exact ho
  | succ k ih =>
    unfold andLoop at ho
    dsimp only at ho
    split_ifs at ho
    · exact hm.okU _ _ _ _ (hm.okE _ ho)
    · exact hm.okU _ _ _ _ (hm.okE _ (ih _ _ ho))
    · exact hm.okU _ _ _ _ (hm.okE _ ho)

theorem same_andLoop (hm : AlikeIf ok mc mc' g c Rm) (ha : AuxAlike ax ax' g c)
    (hc : ∀ a b, ax'.conv (g a.1, g a.2) (g b.1, g b.2) = ax.conv a b) (iters : ℕ) (fac dt : K) (k : ℕ) (g0 : E × E)
    (h : Same g c Rm (· = 0) s s') (ho : ok (andLoop mc ax iters fac dt k g0 s).m) :
    ok s.m ∧ Same g c Rm (· = 0) (andLoop mc ax iters fac dt k g0 s)
      (andLoop mc' ax' iters fac dt k (g g0.1, g g0.2) s') := by
  induction k generalizing s s' g0 with
  | zero => exact ⟨ho, h⟩
  | succ k ih =>
    have h1 := same_setR h 1 _ _ (same_move h 0 0 rfl (fac * dt))
    have h2 := same_upd hm h1 (fac * dt) 1 (Or.inl rfl)
    unfold andLoop at ho ⊢
    dsimp only at ho ⊢
    by_cases hi : iters - (k + 1) < iters - 1
    · rw [if_pos hi] at ho
      rw [if_pos hi, if_pos hi]
      have step : ∀ (ho : ok (clc mc 0 (upd mc (fac * dt) 1 (setR 1 (s.r 0 + (fac * dt) • s.rd 0) s))).m), _ :=
        fun ho => same_clc hm h2 0 ho
      by_cases hb : ax.conv (firstRes (iters - (k + 1))
          ((clc mc 0 (upd mc (fac * dt) 1 (setR 1 (s.r 0 + (fac * dt) • s.rd 0) s))).rd 1,
            (clc mc 0 (upd mc (fac * dt) 1 (setR 1 (s.r 0 + (fac * dt) • s.rd 0) s))).rd 0) g0)
          ((clc mc 0 (upd mc (fac * dt) 1 (setR 1 (s.r 0 + (fac * dt) • s.rd 0) s))).rd 1,
            (clc mc 0 (upd mc (fac * dt) 1 (setR 1 (s.r 0 + (fac * dt) • s.rd 0) s))).rd 0) = true
      · rw [if_pos hb] at ho
        have h3 := step ho
        have h4 := same_setRd h3 0 _ _ (same_relax ha h3 0 1 iters (iters - (k + 1)))
        have h5 := same_weak (same_setRd h4 1 _ _ (h4.rd 0)) (P' := (· = 0)) fun k hk => Or.inr hk
        rw [if_pos hb, if_pos]
        · exact ⟨hm.okU _ _ _ _ (hm.okE _ ho), h5⟩
        · rw [← hb, ← hc, h3.rd, h3.rd]
          congr 1
          unfold firstRes
          split_ifs <;> rfl
      · rw [if_neg hb] at ho
        have hk : ok (clc mc 0 (upd mc (fac * dt) 1 (setR 1 (s.r 0 + (fac * dt) • s.rd 0) s))).m :=
          (show ok (setRd 1 _ (setRd 0 _ (clc mc 0 (upd mc (fac * dt) 1 (setR 1 (s.r 0 + (fac * dt) • s.rd 0) s))))).m
            from ok_andLoop hm _ _ _ _ _ _ ho)
        have h3 := step hk
        have h4 := same_setRd h3 0 _ _ (same_relax ha h3 0 1 iters (iters - (k + 1)))
        have h5 := same_weak (same_setRd h4 1 _ _ (h4.rd 0)) (P' := (· = 0)) fun k hk => Or.inr hk
        rw [if_neg hb, if_neg]
        · refine ⟨hm.okU _ _ _ _ (hm.okE _ hk), ?_⟩
          have := (ih _ h5 ho).2
          convert this using 3
          · rw [h3.rd, h3.rd]
            unfold firstRes
            split_ifs <;> rfl
          · rw [h3.rd, h3.rd]
            unfold firstRes
            split_ifs <;> rfl
        · intro hb'
          apply hb
          rw [← hb', ← hc, h3.rd, h3.rd]
          congr 1
          unfold firstRes
          split_ifs <;> rfl
    · rw [if_neg hi] at ho
      rw [if_neg hi, if_neg hi]
      have h3 := same_clc hm h2 0 ho
      exact ⟨hm.okU _ _ _ _ (hm.okE _ ho), same_weak h3 fun k hk => Or.inr hk⟩

/-- The scheme has no test that depends on more than the relation of the states. -/
def Decides (ax : Aux K E) (ax' : Aux K E') (g : E →ₗ[K] E') (sc : Scheme K) : Prop :=
  NotAnderson sc ∨ ∀ a b, ax'.conv (g a.1, g a.2) (g b.1, g b.2) = ax.conv a b

/-- One step of any scheme keeps the two simulations together. -/
theorem same_step (hm : AlikeIf ok mc mc' g c Rm) (ha : AuxAlike ax ax' g c) (sc : Scheme K)
    (hsc : Decides ax ax' g sc) (dt : K) (h : Same g c Rm (· = 0) s s') (ho : ok (stepOf mc ax sc dt s).m) :
    ok s.m ∧ Same g c Rm (· = 0) (stepOf mc ax sc dt s) (stepOf mc' ax' sc dt s') := by
  have ends : ∀ {Q : ℕ → Prop} {a : Sim K E M} {a' : Sim K E' M'} (e : E) (e' : E') (x : K),
      Same g c Rm Q a a' → e' = g e + c →
      Same g c Rm (· = 0) (fin dt (upd mc dt 0 (addT x (setR 0 e a))))
        (fin dt (upd mc' dt 0 (addT x (setR 0 e' a')))) := by
    intro Q a a' e e' x h1 h2
    have h3 := same_setR h1 0 e e' h2
    exact same_weak (same_fin (same_upd hm (same_addT h3 x) dt 0 (Or.inl rfl)) dt) fun k hk => Or.inl hk
  cases sc with
  | euler =>
    have k1 := hm.okU _ _ _ _ ho
    refine ⟨hm.okU _ _ _ _ (hm.okE _ k1), ?_⟩
    have h1 := same_clc hm (same_upd hm h 0 0 rfl) 0 k1
    exact ends _ _ dt h1 (same_move h1 0 0 rfl dt)
  | leuler =>
    have k1 := hm.okU _ _ _ _ ho
    refine ⟨hm.okU _ _ _ _ (hm.okE _ k1), ?_⟩
    have h1 := same_clcSel hm ha (same_upd hm h 0 0 rfl) 0 k1
    exact ends _ _ dt h1 (same_move h1 0 0 rfl dt)
  | heun =>
    have k1 := hm.okU _ _ _ _ ho
    refine ⟨hm.okU _ _ _ _ (hm.okE _ k1), ?_⟩
    have h1 := same_setR h 0 _ _ (same_move h 0 0 rfl dt)
    have h2 := same_setRd h1 1 _ _ (h1.rd 0)
    have h3 := same_clc hm (same_upd hm h2 0 0 (Or.inl rfl)) 0 k1
    refine ends _ _ dt h3 ?_
    rw [h3.r 0 (Or.inl rfl), h3.rd, h3.rd, ← map_sub, ← map_smul, map_add]
    abel
  | rk2 =>
    have k2 := hm.okU _ _ _ _ ho
    have k1 := hm.okU _ _ _ _ (hm.okE _ k2)
    refine ⟨hm.okU _ _ _ _ (hm.okE _ k1), ?_⟩
    have h1 := same_addT (same_clc hm (same_upd hm h 0 0 rfl) 0 k1) (1 / 2 * dt)
    have h2 := same_setR h1 1 _ _ (same_move h1 0 0 rfl (1 / 2 * dt))
    have h3 := same_clc hm (same_upd hm h2 (1 / 2 * dt) 1 (Or.inl rfl)) 1 k2
    exact ends _ _ (1 / 2 * dt) h3 (same_move h3 0 1 (Or.inr rfl) dt)
  | rk4 =>
    have k4 := hm.okU _ _ _ _ ho
    have k3 := hm.okU _ _ _ _ (hm.okE _ k4)
    have k2 := hm.okU _ _ _ _ (hm.okE _ k3)
    have k1 := hm.okU _ _ _ _ (hm.okE _ k2)
    refine ⟨hm.okU _ _ _ _ (hm.okE _ k1), ?_⟩
    have h1 := same_addT (same_clc hm (same_upd hm h 0 0 rfl) 0 k1) (1 / 2 * dt)
    have h2 := same_setR h1 1 _ _ (same_move h1 0 0 rfl (1 / 2 * dt))
    have h3 := same_clc hm (same_upd hm h2 (1 / 2 * dt) 1 (Or.inl rfl)) 1 k2
    have h4 := same_setR h3 1 _ _ (same_move h3 0 1 (Or.inr rfl) (1 / 2 * dt))
    have h5 := same_addT (same_clc hm (same_upd hm h4 (1 / 2 * dt) 1 (Or.inl rfl)) 2 k3) (1 / 2 * dt)
    have h6 := same_setR h5 2 _ _ (same_move h5 0 2 (Or.inr (Or.inr rfl)) dt)
    have h7 := same_clc hm (same_upd hm h6 dt 2 (Or.inl rfl)) 3 k4
    refine same_weak (same_fin (same_upd hm (same_setR h7 0 _ _ ?_) dt 0 (Or.inl rfl)) dt)
      fun k hk => Or.inl hk
    rw [h7.r 0 (Or.inr (Or.inr (Or.inr rfl))), h7.rd, h7.rd, h7.rd, h7.rd, ← map_add, ← map_add, ← map_smul,
      ← map_smul, map_add, map_add]
    abel
  | ab order =>
    have k1 := hm.okU _ _ _ _ ho
    refine ⟨hm.okU _ _ _ _ (hm.okE _ k1), ?_⟩
    have h1 := same_clc hm (same_shift (same_upd hm h 0 0 rfl)) 0 k1
    have hf : ∀ k, (clc mc' 0 (Time.shift (upd mc' 0 0 s'))).rd k = g ((clc mc 0 (Time.shift (upd mc 0 0 s))).rd k) := h1.rd
    have h2 := same_setR h1 0
      (abFormula ax.ssub (clc mc 0 (Time.shift (upd mc 0 0 s))).n dt ((clc mc 0 (Time.shift (upd mc 0 0 s))).r 0)
        (clc mc 0 (Time.shift (upd mc 0 0 s))).rd)
      (abFormula ax'.ssub (clc mc' 0 (Time.shift (upd mc' 0 0 s'))).n dt ((clc mc' 0 (Time.shift (upd mc' 0 0 s'))).r 0)
        (clc mc' 0 (Time.shift (upd mc' 0 0 s'))).rd)
      (by rw [h1.n, h1.r 0 rfl, funext hf, same_ab ha])
    have h3 : Same g c Rm (fun j => j = 0 ∨ j = 0)
        { setR 0 (abFormula ax.ssub (clc mc 0 (Time.shift (upd mc 0 0 s))).n dt
          ((clc mc 0 (Time.shift (upd mc 0 0 s))).r 0) (clc mc 0 (Time.shift (upd mc 0 0 s))).rd)
          (clc mc 0 (Time.shift (upd mc 0 0 s))) with n := min (s.n + 1) order }
        { setR 0 (abFormula ax'.ssub (clc mc' 0 (Time.shift (upd mc' 0 0 s'))).n dt
          ((clc mc' 0 (Time.shift (upd mc' 0 0 s'))).r 0) (clc mc' 0 (Time.shift (upd mc' 0 0 s'))).rd)
          (clc mc' 0 (Time.shift (upd mc' 0 0 s'))) with n := min (s'.n + 1) order } :=
      ⟨h2.t, h2.tl, by simp only; rw [h.n], h2.r, h2.rd, h2.m⟩
    exact same_weak (same_fin (same_upd hm (same_addT h3 dt) dt 0 (Or.inl rfl)) dt) fun k hk => Or.inl hk
  | impEuler iters fac =>
    have h1 := same_addT h (fac * dt)
    have h2 := same_setRd h1 1 _ _ (h1.rd 0)
    obtain ⟨k1, h3⟩ := same_foldl _ _ (fun a i ho' => hm.okU _ _ _ _ (hm.okE _ (impBody_m mc ax iters fac dt i a ▸ ho')))
      (fun a a' i ha' => same_impBody hm ha iters fac dt i ha') (List.range iters) h2
      (hm.okU _ _ _ _ ho)
    refine ⟨k1, ?_⟩
    exact ends _ _ ((1 - fac) * dt) h3 (same_move h3 0 0 rfl dt)
  | anderson iters fac =>
    rcases hsc with hsc | hsc
    · exact absurd hsc id
    · obtain ⟨k1, h3⟩ := same_andLoop hm ha hsc iters fac dt iters (0, 0) (same_addT h (fac * dt)) (hm.okU _ _ _ _ ho)
      refine ⟨k1, ?_⟩
      simp only [map_zero] at h3
      exact ends _ _ ((1 - fac) * dt) h3 (same_move h3 0 0 rfl dt)
  | newmark iters ga be =>
    have h1 := same_addT (same_setRd h 1 _ _ (h.rd 0)) dt
    have h2 := same_setRd h1 2 _ _ (h1.rd 0)
    obtain ⟨k1, h3⟩ := same_foldl _ _ (fun a i ho' => hm.okU _ _ _ _ (hm.okE _ (newmarkBody_m mc ax iters ga be dt i a ▸ ho')))
      (fun a a' i ha' => same_newmarkBody hm ha iters ga be dt i ha') (List.range iters) h2
      (hm.okU _ _ _ _ ho)
    refine ⟨k1, ?_⟩
    have h4 := same_setR h3 1 _ _ (same_newmark ha h3 rfl ga be dt)
    have h5 := same_setR h4 0 _ _ (h4.r 1 (Or.inl rfl))
    have h6 := same_setRd h5 0 _ _ (h5.rd 1)
    exact same_weak (same_fin (same_upd hm h6 dt 0 (Or.inl rfl)) dt) fun k hk => Or.inl hk
  | wilson iters th =>
    have h1 := same_addT h (th * dt)
    have h2 := same_setRd h1 1 _ _ (h1.rd 0)
    obtain ⟨k1, h3'⟩ := (same_foldl _ _ (fun a i ho' => hm.okU _ _ _ _ (hm.okE _ (wilsonBody_m mc ax iters (th * dt) i a ▸ ho')))
      (fun a a' i ha' => same_wilsonBody hm ha iters (th * dt) i ha')
      (List.range iters) h2 (hm.okU _ _ _ _ ho))
    refine ⟨k1, ?_⟩
    have h3 := same_addT h3' (-((1 - th) * dt))
    have h4 := same_setR h3 1 _ _ (same_wilson ha h3 rfl dt dt (th * dt))
    have h5 := same_setR h4 0 _ _ (h4.r 1 (Or.inl rfl))
    have h6 := same_setRd h5 0 _ _ (h5.rd 1)
    exact same_weak (same_fin (same_upd hm h6 dt 0 (Or.inl rfl)) dt) fun k hk => Or.inl hk

/-- What a step remembers. -/
theorem step_ok (hm : AlikeIf ok mc mc' g c Rm) (ax : Aux K E) (sc : Scheme K) (dt : K) (s : Sim K E M)
    (ho : ok (stepOf mc ax sc dt s).m) : ok s.m := by
  let mu : Machine K (Fin 0 → K) Unit := ⟨fun _ _ _ _ => (), fun _ => (0, ()), fun _ => ()⟩
  have h1 : AlikeIf ok mc mu 0 0 (fun _ _ => True) :=
    ⟨fun _ _ _ _ _ _ => trivial, fun _ _ _ _ => rfl, fun _ _ _ _ => trivial, fun _ _ _ => trivial, hm.okU, hm.okE,
      hm.okN⟩
  by_cases hn : NotAnderson sc
  · exact (same_step h1 (ax := ax) (ax' := ⟨ax.relax, fun _ _ => true, fun _ _ _ _ _ => 0, fun _ _ _ _ => 0,
      fun _ _ => 0, fun _ _ => 0⟩) ⟨fun _ _ => rfl, fun _ _ _ _ _ => rfl, fun _ _ _ _ => rfl, fun _ _ => rfl,
      fun _ _ => Subsingleton.elim _ _⟩ sc (Or.inl hn) dt (s := s) (s' := ⟨s.t, s.tl, fun _ => 0, fun _ => 0, s.n, ()⟩)
      ⟨rfl, rfl, rfl, fun _ _ => Subsingleton.elim _ _, fun _ => Subsingleton.elim _ _, trivial⟩ ho).1
  · cases sc with
    | anderson n f =>
      exact (show ok (addT (f * dt) s).m from ok_andLoop h1 _ _ _ _ _ _ (hm.okU _ _ _ _ ho))
    | _ => exact absurd trivial hn

variable [LinearOrder K]

theorem subLoop_ok (dtM0 : K) (step : K → Sim K E M → Sim K E M) (hk : ∀ x s, ok (step x s).m → ok s.m) (fuel : ℕ)
    (dt : K) (s e : Sim K E M) (l hs : List K)
    (hr : subLoop (ε := Empty) dtM0 (fun x s => .ok (step x s)) fuel dt s l = some (.ok e, hs)) (ho : ok e.m) :
    ok s.m := by
  induction fuel generalizing dt s l with
  | zero =>
    rw [subLoop] at hr
    by_cases hd : dt > 0
    · rw [if_pos hd] at hr
      cases hr
    · rw [if_neg hd] at hr
      simp only [Option.some.injEq, Prod.mk.injEq, Except.ok.injEq] at hr
      exact hr.1 ▸ ho
  | succ f ih =>
    rw [subLoop] at hr
    by_cases hd : dt > 0
    · rw [if_pos hd] at hr
      exact hk _ _ (ih _ _ _ hr)
    · rw [if_neg hd] at hr
      simp only [Option.some.injEq, Prod.mk.injEq, Except.ok.injEq] at hr
      exact hr.1 ▸ ho

theorem call_ok (hm : AlikeIf ok mc mc' g c Rm) (ax : Aux K E) (sc : Scheme K) (dtM0 : K) (fuel : ℕ) (dt : K)
    (s e : Sim K E M) (hs : List K)
    (hr : outerStep (ε := Empty) dtM0 (next mc) (fun x s => .ok (stepOf mc ax sc x s)) fuel dt s =
      some (.ok e, hs)) (ho : ok e.m) : ok s.m := by
  unfold outerStep at hr
  by_cases h0 : dt ≤ 0
  · rw [if_pos h0] at hr
    simp only [Option.some.injEq, Prod.mk.injEq, Except.ok.injEq] at hr
    exact hr.1 ▸ ho
  · rw [if_neg h0] at hr
    exact hm.okN _ (subLoop_ok dtM0 (stepOf mc ax sc) (fun x s => step_ok hm ax sc x s) _ _ _ _ _ _ hr ho)

/-- The internal steps of one call. -/
theorem same_call (hm : AlikeIf ok mc mc' g c Rm) (ha : AuxAlike ax ax' g c) (sc : Scheme K)
    (hsc : Decides ax ax' g sc) (dtM0 : K) (fuel : ℕ) (dt : K) (h : Same g c Rm (· = 0) s s') (e : Sim K E M)
    (hs : List K)
    (hr : outerStep (ε := Empty) dtM0 (next mc) (fun x s => .ok (stepOf mc ax sc x s)) fuel dt s =
      some (.ok e, hs)) (ho : ok e.m) :
    ok s.m ∧ ∃ e', outerStep (ε := Empty) dtM0 (next mc') (fun x s => .ok (stepOf mc' ax' sc x s)) fuel dt s' =
      some (.ok e', hs) ∧ Same g c Rm (· = 0) e e' := by
  unfold outerStep at hr ⊢
  by_cases h0 : dt ≤ 0
  · rw [if_pos h0] at hr ⊢
    simp only [Option.some.injEq, Prod.mk.injEq, Except.ok.injEq] at hr
    exact ⟨hr.1 ▸ ho, s', by rw [hr.2], hr.1 ▸ h⟩
  · rw [if_neg h0] at hr ⊢
    have h1 : Same g c Rm (· = 0) (next mc s) (next mc' s') :=
      ⟨h.t, rfl, h.n, h.r, h.rd, hm.next _ _ h.m⟩
    have hk := subLoop_ok dtM0 (stepOf mc ax sc) (fun x s => step_ok hm ax sc x s) _ _ _ _ _ _ hr ho
    refine ⟨hm.okN _ hk, ?_⟩
    revert hr h1
    generalize next mc s = a
    generalize next mc' s' = a'
    generalize ([] : List K) = l
    intro hr h1
    clear h0 hk
    induction fuel generalizing dt a a' l with
    | zero =>
      rw [subLoop] at hr ⊢
      by_cases hd : dt > 0
      · rw [if_pos hd] at hr
        cases hr
      · rw [if_neg hd] at hr ⊢
        simp only [Option.some.injEq, Prod.mk.injEq, Except.ok.injEq] at hr
        exact ⟨a', by rw [hr.2], hr.1 ▸ h1⟩
    | succ f ih =>
      rw [subLoop] at hr ⊢
      by_cases hd : dt > 0
      · rw [if_pos hd] at hr ⊢
        have hk := subLoop_ok dtM0 (stepOf mc ax sc) (fun x s => step_ok hm ax sc x s) _ _ _ _ _ _ hr ho
        exact ih _ _ _ _ hr (same_step hm ha sc hsc _ h1 hk).2
      · rw [if_neg hd] at hr ⊢
        simp only [Option.some.injEq, Prod.mk.injEq, Except.ok.injEq] at hr
        exact ⟨a', by rw [hr.2], hr.1 ▸ h1⟩

end schemes

end MD.Frame
