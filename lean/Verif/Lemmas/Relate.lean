import Verif.Model.Time
import Mathlib.Algebra.Module.Pi
import Mathlib.Algebra.Order.Ring.Defs
import Mathlib.Tactic.Abel
import Mathlib.Tactic.Ring

/-!
# Two simulations that go through related states
-/

set_option linter.unusedSimpArgs false
set_option linter.unusedSectionVars false
set_option linter.unusedVariables false

namespace MD.Relate

open MD.Time

variable {K E E' M M' : Type} [Field K] [AddCommGroup E] [Module K E] [AddCommGroup E'] [Module K E']

/-- States are related by `Rr`, rates by `Rd`, the objects by `Rm`, as long as nothing has happened that `ok`
excludes; what has happened is remembered.  Times of the second simulation are `κ` times those of the first. -/
structure Alike (κ : K) (ok : M → Prop) (mc : Machine K E M) (mc' : Machine K E' M') (Rr Rd : E → E' → Prop)
    (Rm : M → M' → Prop) : Prop where
  zero : Rd 0 0
  add : ∀ a a' b b', Rd a a' → Rd b b' → Rd (a + b) (a' + b')
  smul : ∀ (x : K) a a', Rd a a' → Rd (x • a) (x • a')
  move : ∀ (x : K) a a' b b', Rr a a' → Rd b b' → Rr (a + x • b) (a' + (κ * x) • b')
  update : ∀ t tl e e' m m', Rr e e' → Rm m m' → Rm (mc.update t tl e m) (mc'.update (κ * t) (κ * tl) e' m')
  rate : ∀ m m', Rm m m' → ok (mc.eval m).2 → Rd (mc.eval m).1 (mc'.eval m').1
  eval : ∀ m m', Rm m m' → ok (mc.eval m).2 → Rm (mc.eval m).2 (mc'.eval m').2
  next : ∀ m m', Rm m m' → Rm (mc.next m) (mc'.next m')
  okU : ∀ t tl e m, ok (mc.update t tl e m) → ok m
  okE : ∀ m, ok (mc.eval m).2 → ok m
  okN : ∀ m, ok (mc.next m) → ok m

/-- What a scheme uses besides. -/
structure AuxAlike (κ : K) (ax : Aux K E) (ax' : Aux K E') (Rr Rd : E → E' → Prop) : Prop where
  relax : ∀ i j, ax'.relax i j = ax.relax i j
  newmark : ∀ ga be a a' b b' h, Rd a a' → Rd b b' → Rd (ax.newmark ga be a b h) (ax'.newmark ga be a' b' (κ * h))
  wilson : ∀ a a' b b' ta h, Rd a a' → Rd b b' → Rd (ax.wilson a b ta h) (ax'.wilson a' b' (κ * ta) (κ * h))
  sel : ∀ a a' b b', Rd a a' → Rd b b' → Rd (ax.sel a b) (ax'.sel a' b')
  ssub : ∀ (x : K) a a' b b', Rr a a' → Rd b b' → Rr (ax.ssub a (x • b)) (ax'.ssub a' ((κ * x) • b'))

/-- The two simulations, where `P` are the states in use. -/
structure Same (κ : K) (Rr Rd : E → E' → Prop) (Rm : M → M' → Prop) (P : ℕ → Prop) (s : Sim K E M)
    (s' : Sim K E' M') : Prop where
  t : s'.t = κ * s.t
  tl : s'.tl = κ * s.tl
  n : s'.n = s.n
  r : ∀ k, P k → Rr (s.r k) (s'.r k)
  rd : ∀ k, Rd (s.rd k) (s'.rd k)
  m : Rm s.m s'.m

/-- The schemes that stop iterating when the mean of the absolute values of the residues is small are
left out. -/
def NotAnderson : Scheme K → Prop
  | .anderson _ _ => False
  | _ => True

/-- Iterations end at the same time. -/
def Ends (ax : Aux K E) (ax' : Aux K E') (Rd : E → E' → Prop) : Prop :=
  ∀ a a' b b', Rd a.1 a'.1 → Rd a.2 a'.2 → Rd b.1 b'.1 → Rd b.2 b'.2 → ax'.conv a' b' = ax.conv a b

variable {κ : K} {mc : Machine K E M} {mc' : Machine K E' M'} {ax : Aux K E} {ax' : Aux K E'}
  {Rr Rd : E → E' → Prop} {Rm : M → M' → Prop} {P : ℕ → Prop} {ok : M → Prop} {s : Sim K E M} {s' : Sim K E' M'}

theorem Alike.move' (hm : Alike κ ok mc mc' Rr Rd Rm) {x x' : K} (hx : x' = κ * x) {a b : E} {a' b' : E'}
    (ha : Rr a a') (hb : Rd b b') : Rr (a + x • b) (a' + x' • b') := by
  rw [hx]
  exact hm.move _ _ _ _ _ ha hb

theorem Alike.sub (hm : Alike κ ok mc mc' Rr Rd Rm) {a b : E} {a' b' : E'} (ha : Rd a a') (hb : Rd b b') :
    Rd (a - b) (a' - b') := by
  have := hm.add _ _ _ _ ha (hm.smul (-1) _ _ hb)
  rw [neg_one_smul, neg_one_smul, ← sub_eq_add_neg, ← sub_eq_add_neg] at this
  exact this

theorem AuxAlike.ssub' (ha : AuxAlike κ ax ax' Rr Rd) {x x' : K} (hx : x' = κ * x) {a b : E} {a' b' : E'}
    (h : Rr a a') (hb : Rd b b') : Rr (ax.ssub a (x • b)) (ax'.ssub a' (x' • b')) := by
  rw [hx]
  exact ha.ssub _ _ _ _ _ h hb

theorem same_upd (hm : Alike κ ok mc mc' Rr Rd Rm) (h : Same κ Rr Rd Rm P s s') {x x' : K} (hx : x' = κ * x) (k : ℕ)
    (hk : P k) : Same κ Rr Rd Rm P (upd mc x k s) (upd mc' x' k s') := by
  refine ⟨h.t, h.tl, h.n, h.r, h.rd, ?_⟩
  show Rm (mc.update _ _ _ _) (mc'.update _ _ _ _)
  rw [h.t, h.tl, hx, ← mul_add]
  exact hm.update _ _ _ _ _ _ (h.r k hk) h.m

theorem same_setR (h : Same κ Rr Rd Rm P s s') (k : ℕ) {e : E} {e' : E'} (he : Rr e e') :
    Same κ Rr Rd Rm (fun j => j = k ∨ P j) (setR k e s) (setR k e' s') := by
  refine ⟨h.t, h.tl, h.n, ?_, h.rd, h.m⟩
  intro j hj
  simp only [setR, Function.update_apply]
  split_ifs with h1
  · exact he
  · exact h.r j (by tauto)

theorem same_setRd (h : Same κ Rr Rd Rm P s s') (k : ℕ) {e : E} {e' : E'} (he : Rd e e') :
    Same κ Rr Rd Rm P (setRd k e s) (setRd k e' s') := by
  refine ⟨h.t, h.tl, h.n, h.r, ?_, h.m⟩
  intro j
  simp only [setRd, Function.update_apply]
  split_ifs with h1
  · exact he
  · exact h.rd j

theorem same_clc (hm : Alike κ ok mc mc' Rr Rd Rm) (h : Same κ Rr Rd Rm P s s') (k : ℕ)
    (ho : ok (mc.eval s.m).2) : Same κ Rr Rd Rm P (clc mc k s) (clc mc' k s') := by
  refine ⟨h.t, h.tl, h.n, h.r, ?_, hm.eval _ _ h.m ho⟩
  intro j
  simp only [clc, Function.update_apply]
  split_ifs with h1
  · exact hm.rate _ _ h.m ho
  · exact h.rd j

theorem same_clcSel (hm : Alike κ ok mc mc' Rr Rd Rm) (ha : AuxAlike κ ax ax' Rr Rd) (h : Same κ Rr Rd Rm P s s') (k : ℕ)
    (ho : ok (mc.eval s.m).2) : Same κ Rr Rd Rm P (clcSel mc ax k s) (clcSel mc' ax' k s') := by
  refine ⟨h.t, h.tl, h.n, h.r, ?_, hm.eval _ _ h.m ho⟩
  intro j
  simp only [clcSel, Function.update_apply]
  split_ifs with h1
  · exact ha.sel _ _ _ _ (hm.rate _ _ h.m ho) (h.rd _)
  · exact h.rd j

theorem same_addT (h : Same κ Rr Rd Rm P s s') {x x' : K} (hx : x' = κ * x) :
    Same κ Rr Rd Rm P (addT x s) (addT x' s') := by
  refine ⟨?_, h.tl, h.n, h.r, h.rd, h.m⟩
  show s'.t + x' = κ * (s.t + x)
  rw [h.t, hx, mul_add]

theorem same_fin (h : Same κ Rr Rd Rm P s s') {x x' : K} (hx : x' = κ * x) :
    Same κ Rr Rd Rm P (fin x s) (fin x' s') := by
  refine ⟨h.t, ?_, h.n, h.r, h.rd, h.m⟩
  show s'.tl + x' = κ * (s.tl + x)
  rw [h.tl, hx, mul_add]

theorem same_weak {P' : ℕ → Prop} (h : Same κ Rr Rd Rm P s s') (hP : ∀ k, P' k → P k) : Same κ Rr Rd Rm P' s s' :=
  ⟨h.t, h.tl, h.n, fun k hk => h.r k (hP k hk), h.rd, h.m⟩

theorem same_mix (hm : Alike κ ok mc mc' Rr Rd Rm) {a b : E} {a' b' : E'} (ha : Rd a a') (hb : Rd b b') (f : K) :
    Rd (mix a b f) (mix a' b' f) := by
  unfold mix
  exact hm.add _ _ _ _ (hm.smul _ _ _ ha) (hm.smul _ _ _ hb)

theorem same_relax (hm : Alike κ ok mc mc' Rr Rd Rm) (ha : AuxAlike κ ax ax' Rr Rd) (h : Same κ Rr Rd Rm P s s')
    (j k n i : ℕ) : Rd (mix (s.rd j) (s.rd k) (ax.relax n i)) (mix (s'.rd j) (s'.rd k) (ax'.relax n i)) := by
  rw [ha.relax]
  exact same_mix hm (h.rd _) (h.rd _) _

theorem same_foldl {α : Type} (f : Sim K E M → α → Sim K E M) (f' : Sim K E' M' → α → Sim K E' M')
    (hk : ∀ s i, ok (f s i).m → ok s.m)
    (hf : ∀ s s' i, Same κ Rr Rd Rm P s s' → ok (f s i).m → Same κ Rr Rd Rm P (f s i) (f' s' i)) (l : List α)
    (h : Same κ Rr Rd Rm P s s') (ho : ok (l.foldl f s).m) :
    ok s.m ∧ Same κ Rr Rd Rm P (l.foldl f s) (l.foldl f' s') := by
  have hl : ∀ (l : List α) (s : Sim K E M), ok (l.foldl f s).m → ok s.m := by
    intro l
    induction l with
    | nil => exact fun _ h => h
    | cons i l ih => exact fun s h => hk s i (ih _ h)
  refine ⟨hl l s ho, ?_⟩
  induction l generalizing s s' with
  | nil => exact h
  | cons i l ih => exact ih (hf _ _ _ h (hl l _ ho)) ho

theorem same_shift (h : Same κ Rr Rd Rm P s s') : Same κ Rr Rd Rm P (Time.shift s) (Time.shift s') := by
  unfold Time.shift
  have h1 := same_setRd h 1 (h.rd 0)
  have h2 := same_setRd h1 2 (h1.rd 1)
  have h3 := same_setRd h2 3 (h2.rd 2)
  exact same_setRd h3 4 (h3.rd 3)

theorem same_ab (hm : Alike κ ok mc mc' Rr Rd Rm) (ha : AuxAlike κ ax ax' Rr Rd) (n : ℕ) {dt dt' : K} (hd : dt' = κ * dt)
    {r : E} {r' : E'} (hr : Rr r r') {rd : ℕ → E} {rd' : ℕ → E'} (h : ∀ k, Rd (rd k) (rd' k)) :
    Rr (abFormula ax.ssub n dt r rd) (abFormula ax'.ssub n dt' r' rd') := by
  subst hd
  unfold abFormula
  split
  · exact hm.move' rfl hr (h 0)
  · exact ha.ssub' (by ring) (hm.move' (by ring) hr (h 0)) (h 1)
  · exact hm.move' (by ring) (ha.ssub' (by ring) (hm.move' (by ring) hr (h 0)) (h 1)) (h 2)
  · exact ha.ssub' (by ring) (hm.move' (by ring) (ha.ssub' (by ring) (hm.move' (by ring) hr (h 0)) (h 1)) (h 2)) (h 3)
  · exact hm.move' (by ring) (ha.ssub' (by ring) (hm.move' (by ring) (ha.ssub' (by ring)
      (hm.move' (by ring) hr (h 0)) (h 1)) (h 2)) (h 3)) (h 4)

theorem impBody_m (mc : Machine K E M) (ax : Aux K E) (iters : ℕ) (fac dt : K) (i : ℕ) (s : Sim K E M) :
    (impBody mc ax iters fac dt i s).m = (clc mc 0 (upd mc (fac * dt) 1 (setR 1 (s.r 0 + (fac * dt) • s.rd 0) s))).m := by
  unfold impBody
  dsimp only
  split_ifs <;> rfl

theorem same_impBody (hm : Alike κ ok mc mc' Rr Rd Rm) (ha : AuxAlike κ ax ax' Rr Rd) (iters : ℕ) (fac : K) {dt dt' : K}
    (hd : dt' = κ * dt) (i : ℕ) (h : Same κ Rr Rd Rm (· = 0) s s') (ho : ok (impBody mc ax iters fac dt i s).m) :
    Same κ Rr Rd Rm (· = 0) (impBody mc ax iters fac dt i s) (impBody mc' ax' iters fac dt' i s') := by
  have hx : fac * dt' = κ * (fac * dt) := by rw [hd]; ring
  have h1 := same_setR h 1 (hm.move' hx (h.r 0 rfl) (h.rd 0))
  have h2 := same_upd hm h1 hx 1 (Or.inl rfl)
  rw [impBody_m] at ho
  have h3 := same_clc hm h2 0 ho
  unfold impBody
  dsimp only
  by_cases hi : i < iters - 1
  · rw [if_pos hi, if_pos hi]
    have h4 := same_setRd h3 0 (same_relax hm ha h3 0 1 iters i)
    exact same_weak (same_setRd h4 1 (h4.rd 0)) fun k hk => Or.inr hk
  · rw [if_neg hi, if_neg hi]
    exact same_weak h3 fun k hk => Or.inr hk

theorem newmarkBody_m (mc : Machine K E M) (ax : Aux K E) (iters : ℕ) (ga be dt : K) (i : ℕ) (s : Sim K E M) :
    (newmarkBody mc ax iters ga be dt i s).m = (clc mc 1 (upd mc dt 1 (setR 1 (s.r 0 + dt • ax.newmark ga be (s.rd 0) (s.rd 1) dt) s))).m := by
  unfold newmarkBody
  dsimp only
  split_ifs <;> rfl

theorem same_newmarkBody (hm : Alike κ ok mc mc' Rr Rd Rm) (ha : AuxAlike κ ax ax' Rr Rd) (iters : ℕ) (ga be : K)
    {dt dt' : K} (hd : dt' = κ * dt) (i : ℕ) (h : Same κ Rr Rd Rm (· = 0) s s')
    (ho : ok (newmarkBody mc ax iters ga be dt i s).m) :
    Same κ Rr Rd Rm (· = 0) (newmarkBody mc ax iters ga be dt i s) (newmarkBody mc' ax' iters ga be dt' i s') := by
  subst hd
  have h1 := same_setR h 1 (hm.move dt _ _ _ _ (h.r 0 rfl) (ha.newmark ga be _ _ _ _ dt (h.rd 0) (h.rd 1)))
  have h2 := same_upd hm h1 (x := dt) rfl 1 (Or.inl rfl)
  rw [newmarkBody_m] at ho
  have h3 := same_clc hm h2 1 ho
  unfold newmarkBody
  dsimp only
  by_cases hi : i < iters - 1
  · rw [if_pos hi, if_pos hi]
    have h4 := same_setRd h3 1 (same_relax hm ha h3 1 2 iters i)
    exact same_weak (same_setRd h4 2 (h4.rd 1)) fun k hk => Or.inr hk
  · rw [if_neg hi, if_neg hi]
    exact same_weak h3 fun k hk => Or.inr hk

theorem wilsonBody_m (mc : Machine K E M) (ax : Aux K E) (iters : ℕ) (dt : K) (i : ℕ) (s : Sim K E M) :
    (wilsonBody mc ax iters dt i s).m = (clc mc 1 (upd mc dt 1 (setR 1 (s.r 0 + dt • ax.wilson (s.rd 0) (s.rd 1) dt dt) s))).m := by
  unfold wilsonBody
  dsimp only
  split_ifs <;> rfl

theorem same_wilsonBody (hm : Alike κ ok mc mc' Rr Rd Rm) (ha : AuxAlike κ ax ax' Rr Rd) (iters : ℕ)
    {dt dt' : K} (hd : dt' = κ * dt) (i : ℕ) (h : Same κ Rr Rd Rm (· = 0) s s')
    (ho : ok (wilsonBody mc ax iters dt i s).m) :
    Same κ Rr Rd Rm (· = 0) (wilsonBody mc ax iters dt i s) (wilsonBody mc' ax' iters dt' i s') := by
  subst hd
  have h1 := same_setR h 1 (hm.move dt _ _ _ _ (h.r 0 rfl) (ha.wilson _ _ _ _ dt dt (h.rd 0) (h.rd 1)))
  have h2 := same_upd hm h1 (x := dt) rfl 1 (Or.inl rfl)
  rw [wilsonBody_m] at ho
  have h3 := same_clc hm h2 1 ho
  unfold wilsonBody
  dsimp only
  by_cases hi : i < iters - 1
  · rw [if_pos hi, if_pos hi]
    have h4 := same_setRd h3 0 (same_relax hm ha h3 0 1 iters i)
    exact same_weak (same_setRd h4 1 (h4.rd 0)) fun k hk => Or.inr hk
  · rw [if_neg hi, if_neg hi]
    exact same_weak h3 fun k hk => Or.inr hk

/-- What a machine remembers. -/
structure Remembers (ok : M → Prop) (mc : Machine K E M) : Prop where
  okU : ∀ t tl e m, ok (mc.update t tl e m) → ok m
  okE : ∀ m, ok (mc.eval m).2 → ok m
  okN : ∀ m, ok (mc.next m) → ok m

theorem Alike.mem (hm : Alike κ ok mc mc' Rr Rd Rm) : Remembers ok mc := ⟨hm.okU, hm.okE, hm.okN⟩

theorem ok_andLoop (hm : Remembers ok mc) (iters : ℕ) (fac dt : K) (k : ℕ) (g0 : E × E) (s : Sim K E M)
    (ho : ok (andLoop mc ax iters fac dt k g0 s).m) : ok s.m := by
  induction k generalizing s g0 with
  | zero => exact ho
  | succ k ih =>
    unfold andLoop at ho
    dsimp only at ho
    split_ifs at ho
    · exact hm.okU _ _ _ _ (hm.okE _ ho)
    · exact hm.okU _ _ _ _ (hm.okE _ (ih _ _ ho))
    · exact hm.okU _ _ _ _ (hm.okE _ ho)

theorem same_firstRes {i : ℕ} {a b : E × E} {a' b' : E' × E'} (ha : Rd a.1 a'.1 ∧ Rd a.2 a'.2)
    (hb : Rd b.1 b'.1 ∧ Rd b.2 b'.2) :
    Rd (firstRes i a b).1 (firstRes i a' b').1 ∧ Rd (firstRes i a b).2 (firstRes i a' b').2 := by
  unfold firstRes
  split_ifs
  · exact ha
  · exact hb

theorem same_andLoop (hm : Alike κ ok mc mc' Rr Rd Rm) (ha : AuxAlike κ ax ax' Rr Rd) (hc : Ends ax ax' Rd) (iters : ℕ)
    (fac : K) {dt dt' : K} (hd : dt' = κ * dt) (k : ℕ) (g0 : E × E) (g0' : E' × E') (h0 : Rd g0.1 g0'.1 ∧ Rd g0.2 g0'.2)
    (h : Same κ Rr Rd Rm (· = 0) s s') (ho : ok (andLoop mc ax iters fac dt k g0 s).m) :
    ok s.m ∧ Same κ Rr Rd Rm (· = 0) (andLoop mc ax iters fac dt k g0 s) (andLoop mc' ax' iters fac dt' k g0' s') := by
  have hx : fac * dt' = κ * (fac * dt) := by rw [hd]; ring
  induction k generalizing s s' g0 g0' with
  | zero => exact ⟨ho, h⟩
  | succ k ih =>
    have h1 := same_setR h 1 (hm.move' hx (h.r 0 rfl) (h.rd 0))
    have h2 := same_upd hm h1 hx 1 (Or.inl rfl)
    have hk : ok (clc mc 0 (upd mc (fac * dt) 1 (setR 1 (s.r 0 + (fac * dt) • s.rd 0) s))).m := by
      unfold andLoop at ho
      dsimp only at ho
      split_ifs at ho
      · exact ho
      · exact (show ok (setRd 1 _ (setRd 0 _ (clc mc 0 (upd mc (fac * dt) 1 (setR 1 (s.r 0 + (fac * dt) • s.rd 0) s))))).m
          from ok_andLoop hm.mem _ _ _ _ _ _ ho)
      · exact ho
    have h3 := same_clc hm h2 0 hk
    refine ⟨hm.okU _ _ _ _ (hm.okE _ hk), ?_⟩
    unfold andLoop at ho ⊢
    dsimp only at ho ⊢
    by_cases hi : iters - (k + 1) < iters - 1
    · rw [if_pos hi] at ho
      rw [if_pos hi, if_pos hi]
      have h4 := same_setRd h3 0 (same_relax hm ha h3 0 1 iters (iters - (k + 1)))
      have h5 := same_weak (same_setRd h4 1 (h4.rd 0)) (P' := (· = 0)) fun k hk => Or.inr hk
      have h6 := same_firstRes (i := iters - (k + 1)) (Rd := Rd) (a := (_, _)) (a' := (_, _)) ⟨h3.rd 1, h3.rd 0⟩ h0
      have h7 := hc _ _ (_, _) (_, _) h6.1 h6.2 (h3.rd 1) (h3.rd 0)
      rw [h7]
      split_ifs at ho ⊢
      · exact h5
      · exact (ih _ _ h6 h5 ho).2
    · rw [if_neg hi, if_neg hi]
      exact same_weak h3 fun k hk => Or.inr hk

/-- One step of any scheme keeps the two simulations together. -/
theorem same_step (hm : Alike κ ok mc mc' Rr Rd Rm) (ha : AuxAlike κ ax ax' Rr Rd) (sc : Scheme K)
    (hsc : NotAnderson sc ∨ Ends ax ax' Rd) {dt dt' : K} (hd : dt' = κ * dt) (h : Same κ Rr Rd Rm (· = 0) s s')
    (ho : ok (stepOf mc ax sc dt s).m) :
    ok s.m ∧ Same κ Rr Rd Rm (· = 0) (stepOf mc ax sc dt s) (stepOf mc' ax' sc dt' s') := by
  have ends : ∀ {Q : ℕ → Prop} {a : Sim K E M} {a' : Sim K E' M'} {e : E} {e' : E'} {x x' : K}, x' = κ * x →
      Same κ Rr Rd Rm Q a a' → Rr e e' →
      Same κ Rr Rd Rm (· = 0) (fin dt (upd mc dt 0 (addT x (setR 0 e a))))
        (fin dt' (upd mc' dt' 0 (addT x' (setR 0 e' a')))) := by
    intro Q a a' e e' x x' hx h1 h2
    have h3 := same_setR h1 0 h2
    exact same_weak (same_fin (same_upd hm (same_addT h3 hx) hd 0 (Or.inl rfl)) hd) fun k hk => Or.inl hk
  have hh : 1 / 2 * dt' = κ * (1 / 2 * dt) := by rw [hd]; ring
  cases sc with
  | euler =>
    have k1 := hm.okU _ _ _ _ ho
    refine ⟨hm.okU _ _ _ _ (hm.okE _ k1), ?_⟩
    have h1 := same_clc hm (same_upd hm h (mul_zero κ).symm 0 rfl) 0 k1
    exact ends hd h1 (hm.move' hd (h1.r 0 rfl) (h1.rd 0))
  | leuler =>
    have k1 := hm.okU _ _ _ _ ho
    refine ⟨hm.okU _ _ _ _ (hm.okE _ k1), ?_⟩
    have h1 := same_clcSel hm ha (same_upd hm h (mul_zero κ).symm 0 rfl) 0 k1
    exact ends hd h1 (hm.move' hd (h1.r 0 rfl) (h1.rd 0))
  | heun =>
    have k1 := hm.okU _ _ _ _ ho
    refine ⟨hm.okU _ _ _ _ (hm.okE _ k1), ?_⟩
    have h1 := same_setR h 0 (hm.move' hd (h.r 0 rfl) (h.rd 0))
    have h2 := same_setRd h1 1 (h1.rd 0)
    have h3 := same_clc hm (same_upd hm h2 (mul_zero κ).symm 0 (Or.inl rfl)) 0 k1
    exact ends hd h3 (hm.move' hh (h3.r 0 (Or.inl rfl)) (hm.sub (h3.rd 0) (h3.rd 1)))
  | rk2 =>
    have k2 := hm.okU _ _ _ _ ho
    have k1 := hm.okU _ _ _ _ (hm.okE _ k2)
    refine ⟨hm.okU _ _ _ _ (hm.okE _ k1), ?_⟩
    have h1 := same_addT (same_clc hm (same_upd hm h (mul_zero κ).symm 0 rfl) 0 k1) hh
    have h2 := same_setR h1 1 (hm.move' hh (h1.r 0 rfl) (h1.rd 0))
    have h3 := same_clc hm (same_upd hm h2 hh 1 (Or.inl rfl)) 1 k2
    exact ends hh h3 (hm.move' hd (h3.r 0 (Or.inr rfl)) (h3.rd 1))
  | rk4 =>
    have k4 := hm.okU _ _ _ _ ho
    have k3 := hm.okU _ _ _ _ (hm.okE _ k4)
    have k2 := hm.okU _ _ _ _ (hm.okE _ k3)
    have k1 := hm.okU _ _ _ _ (hm.okE _ k2)
    refine ⟨hm.okU _ _ _ _ (hm.okE _ k1), ?_⟩
    have h1 := same_addT (same_clc hm (same_upd hm h (mul_zero κ).symm 0 rfl) 0 k1) hh
    have h2 := same_setR h1 1 (hm.move' hh (h1.r 0 rfl) (h1.rd 0))
    have h3 := same_clc hm (same_upd hm h2 hh 1 (Or.inl rfl)) 1 k2
    have h4 := same_setR h3 1 (hm.move' hh (h3.r 0 (Or.inr rfl)) (h3.rd 1))
    have h5 := same_addT (same_clc hm (same_upd hm h4 hh 1 (Or.inl rfl)) 2 k3) hh
    have h6 := same_setR h5 2 (hm.move' hd (h5.r 0 (Or.inr (Or.inr rfl))) (h5.rd 2))
    have h7 := same_clc hm (same_upd hm h6 hd 2 (Or.inl rfl)) 3 k4
    refine same_weak (same_fin (same_upd hm (same_setR h7 0 ?_) hd 0 (Or.inl rfl)) hd)
      fun k hk => Or.inl hk
    exact hm.move' (by rw [hd]; ring) (hm.move' (by rw [hd]; ring) (h7.r 0 (Or.inr (Or.inr (Or.inr rfl))))
      (hm.add _ _ _ _ (h7.rd 0) (h7.rd 3))) (hm.add _ _ _ _ (h7.rd 1) (h7.rd 2))
  | ab order =>
    have k1 := hm.okU _ _ _ _ ho
    refine ⟨hm.okU _ _ _ _ (hm.okE _ k1), ?_⟩
    have h1 := same_clc hm (same_shift (same_upd hm h (mul_zero κ).symm 0 rfl)) 0 k1
    have h2 := same_setR h1 0
      (e := abFormula ax.ssub (clc mc 0 (Time.shift (upd mc 0 0 s))).n dt ((clc mc 0 (Time.shift (upd mc 0 0 s))).r 0)
        (clc mc 0 (Time.shift (upd mc 0 0 s))).rd)
      (e' := abFormula ax'.ssub (clc mc' 0 (Time.shift (upd mc' 0 0 s'))).n dt' ((clc mc' 0 (Time.shift (upd mc' 0 0 s'))).r 0)
        (clc mc' 0 (Time.shift (upd mc' 0 0 s'))).rd)
      (by rw [h1.n]; exact same_ab hm ha _ hd (h1.r 0 rfl) h1.rd)
    have h3 : Same κ Rr Rd Rm (fun j => j = 0 ∨ j = 0)
        { setR 0 (abFormula ax.ssub (clc mc 0 (Time.shift (upd mc 0 0 s))).n dt
          ((clc mc 0 (Time.shift (upd mc 0 0 s))).r 0) (clc mc 0 (Time.shift (upd mc 0 0 s))).rd)
          (clc mc 0 (Time.shift (upd mc 0 0 s))) with n := min (s.n + 1) order }
        { setR 0 (abFormula ax'.ssub (clc mc' 0 (Time.shift (upd mc' 0 0 s'))).n dt'
          ((clc mc' 0 (Time.shift (upd mc' 0 0 s'))).r 0) (clc mc' 0 (Time.shift (upd mc' 0 0 s'))).rd)
          (clc mc' 0 (Time.shift (upd mc' 0 0 s'))) with n := min (s'.n + 1) order } :=
      ⟨h2.t, h2.tl, by simp only; rw [h.n], h2.r, h2.rd, h2.m⟩
    exact same_weak (same_fin (same_upd hm (same_addT h3 hd) hd 0 (Or.inl rfl)) hd) fun k hk => Or.inl hk
  | impEuler iters fac =>
    have hx : fac * dt' = κ * (fac * dt) := by rw [hd]; ring
    have h1 := same_addT h hx
    have h2 := same_setRd h1 1 (h1.rd 0)
    obtain ⟨k1, h3⟩ := same_foldl _ _ (fun a i ho' => hm.okU _ _ _ _ (hm.okE _ (impBody_m mc ax iters fac dt i a ▸ ho')))
      (fun a a' i ha' => same_impBody hm ha iters fac hd i ha') (List.range iters) h2
      (hm.okU _ _ _ _ ho)
    refine ⟨k1, ?_⟩
    exact ends (by rw [hd]; ring) h3 (hm.move' hd (h3.r 0 rfl) (h3.rd 0))
  | anderson iters fac =>
    have hx : fac * dt' = κ * (fac * dt) := by rw [hd]; ring
    rcases hsc with hsc | hsc
    · exact absurd hsc id
    · obtain ⟨k1, h3⟩ := same_andLoop hm ha hsc iters fac hd iters (0, 0) (0, 0) ⟨hm.zero, hm.zero⟩ (same_addT h hx)
        (hm.okU _ _ _ _ ho)
      refine ⟨k1, ?_⟩
      exact ends (by rw [hd]; ring) h3 (hm.move' hd (h3.r 0 rfl) (h3.rd 0))
  | newmark iters ga be =>
    subst hd
    have h1 := same_addT (same_setRd h 1 (h.rd 0)) (x := dt) rfl
    have h2 := same_setRd h1 2 (h1.rd 0)
    obtain ⟨k1, h3⟩ := same_foldl _ _ (fun a i ho' => hm.okU _ _ _ _ (hm.okE _ (newmarkBody_m mc ax iters ga be dt i a ▸ ho')))
      (fun a a' i ha' => same_newmarkBody hm ha iters ga be rfl i ha') (List.range iters) h2
      (hm.okU _ _ _ _ ho)
    refine ⟨k1, ?_⟩
    have h4 := same_setR h3 1 (hm.move dt _ _ _ _ (h3.r 0 rfl) (ha.newmark ga be _ _ _ _ dt (h3.rd 0) (h3.rd 1)))
    have h5 := same_setR h4 0 (h4.r 1 (Or.inl rfl))
    have h6 := same_setRd h5 0 (h5.rd 1)
    exact same_weak (same_fin (same_upd hm h6 (x := dt) rfl 0 (Or.inl rfl)) (x := dt) rfl) fun k hk => Or.inl hk
  | wilson iters th =>
    subst hd
    have hx : th * (κ * dt) = κ * (th * dt) := by ring
    have h1 := same_addT h hx
    have h2 := same_setRd h1 1 (h1.rd 0)
    obtain ⟨k1, h3'⟩ := (same_foldl _ _ (fun a i ho' => hm.okU _ _ _ _ (hm.okE _ (wilsonBody_m mc ax iters (th * dt) i a ▸ ho')))
      (fun a a' i ha' => same_wilsonBody hm ha iters hx i ha')
      (List.range iters) h2 (hm.okU _ _ _ _ ho))
    refine ⟨k1, ?_⟩
    have h3 := same_addT h3' (x := -((1 - th) * dt)) (x' := -((1 - th) * (κ * dt))) (by ring)
    have h4 := same_setR h3 1 (hm.move dt _ _ _ _ (h3.r 0 rfl) (ha.wilson _ _ _ _ dt (th * dt) (h3.rd 0) (h3.rd 1)))
    rw [← hx] at h4
    have h5 := same_setR h4 0 (h4.r 1 (Or.inl rfl))
    have h6 := same_setRd h5 0 (h5.rd 1)
    exact same_weak (same_fin (same_upd hm h6 (x := dt) rfl 0 (Or.inl rfl)) (x := dt) rfl) fun k hk => Or.inl hk

/-- What a step remembers. -/
theorem step_ok (hm : Remembers ok mc) (ax : Aux K E) (sc : Scheme K) (dt : K) (s : Sim K E M)
    (ho : ok (stepOf mc ax sc dt s).m) : ok s.m := by
  have h1 : Alike (1 : K) ok mc mc (fun _ _ => True) (fun _ _ => True) (fun _ _ => True) :=
    ⟨trivial, fun _ _ _ _ _ _ => trivial, fun _ _ _ _ => trivial, fun _ _ _ _ _ _ _ => trivial,
      fun _ _ _ _ _ _ _ _ => trivial, fun _ _ _ _ => trivial, fun _ _ _ _ => trivial, fun _ _ _ => trivial, hm.okU, hm.okE,
      hm.okN⟩
  by_cases hn : NotAnderson sc
  · exact (same_step h1 (ax := ax) (ax' := ax) ⟨fun _ _ => rfl, fun _ _ _ _ _ _ _ _ _ => trivial,
      fun _ _ _ _ _ _ _ _ => trivial, fun _ _ _ _ _ _ => trivial, fun _ _ _ _ _ _ _ => trivial⟩ sc (Or.inl hn) (one_mul dt).symm
      (s := s) (s' := s) ⟨(one_mul _).symm, (one_mul _).symm, rfl, fun _ _ => trivial, fun _ => trivial, trivial⟩ ho).1
  · cases sc with
    | anderson n f =>
      exact (show ok (addT (f * dt) s).m from ok_andLoop hm _ _ _ _ _ _ (hm.okU _ _ _ _ ho))
    | _ => exact absurd trivial hn

variable [LinearOrder K] [IsStrictOrderedRing K]

theorem subLoop_ok (dtM0 : K) (step : K → Sim K E M → Sim K E M) (hk : ∀ x s, ok (step x s).m → ok s.m) (fuel : ℕ)
    (dt : K) (s e : Sim K E M) (l hs : List K)
    (hr : subLoop (ε := Empty) dtM0 (fun x s => .ok (step x s)) fuel dt s l = some (.ok e, hs)) (ho : ok e.m) :
    ok s.m := by
  induction fuel generalizing dt s l with
  | zero =>
    rw [subLoop] at hr
    by_cases hd : dt > 0
    · rw [if_pos hd] at hr
      cases hr
    · rw [if_neg hd] at hr
      simp only [Option.some.injEq, Prod.mk.injEq, Except.ok.injEq] at hr
      exact hr.1 ▸ ho
  | succ f ih =>
    rw [subLoop] at hr
    by_cases hd : dt > 0
    · rw [if_pos hd] at hr
      exact hk _ _ (ih _ _ _ hr)
    · rw [if_neg hd] at hr
      simp only [Option.some.injEq, Prod.mk.injEq, Except.ok.injEq] at hr
      exact hr.1 ▸ ho

theorem call_ok (hm : Remembers ok mc) (ax : Aux K E) (sc : Scheme K) (dtM0 : K) (fuel : ℕ) (dt : K)
    (s e : Sim K E M) (hs : List K)
    (hr : outerStep (ε := Empty) dtM0 (next mc) (fun x s => .ok (stepOf mc ax sc x s)) fuel dt s =
      some (.ok e, hs)) (ho : ok e.m) : ok s.m := by
  unfold outerStep at hr
  by_cases h0 : dt ≤ 0
  · rw [if_pos h0] at hr
    simp only [Option.some.injEq, Prod.mk.injEq, Except.ok.injEq] at hr
    exact hr.1 ▸ ho
  · rw [if_neg h0] at hr
    exact hm.okN _ (subLoop_ok dtM0 (stepOf mc ax sc) (fun x s => step_ok hm ax sc x s) _ _ _ _ _ _ hr ho)

/-- The internal steps of one call. -/
theorem same_call (hκ : 0 < κ) (hm : Alike κ ok mc mc' Rr Rd Rm) (ha : AuxAlike κ ax ax' Rr Rd) (sc : Scheme K)
    (hsc : NotAnderson sc ∨ Ends ax ax' Rd) {dtM0 dtM0' : K} (hM : dtM0' = κ * dtM0) (fuel : ℕ) {dt dt' : K}
    (hd : dt' = κ * dt) (h : Same κ Rr Rd Rm (· = 0) s s') (e : Sim K E M) (hs : List K)
    (hr : outerStep (ε := Empty) dtM0 (next mc) (fun x s => .ok (stepOf mc ax sc x s)) fuel dt s =
      some (.ok e, hs)) (ho : ok e.m) :
    ok s.m ∧ ∃ e', outerStep (ε := Empty) dtM0' (next mc') (fun x s => .ok (stepOf mc' ax' sc x s)) fuel dt' s' =
      some (.ok e', hs.map (κ * ·)) ∧ Same κ Rr Rd Rm (· = 0) e e' := by
  subst hd hM
  unfold outerStep at hr ⊢
  by_cases h0 : dt ≤ 0
  · rw [if_pos h0] at hr
    rw [if_pos (mul_nonpos_of_nonneg_of_nonpos hκ.le h0)]
    simp only [Option.some.injEq, Prod.mk.injEq, Except.ok.injEq] at hr
    exact ⟨hr.1 ▸ ho, s', by rw [← hr.2]; rfl, hr.1 ▸ h⟩
  · rw [if_neg h0] at hr
    have h0' : ¬ κ * dt ≤ 0 := not_le.2 (mul_pos hκ (not_le.1 h0))
    rw [if_neg h0']
    have h1 : Same κ Rr Rd Rm (· = 0) (next mc s) (next mc' s') :=
      ⟨h.t, (mul_zero κ).symm, h.n, h.r, h.rd, hm.next _ _ h.m⟩
    have hk := subLoop_ok dtM0 (stepOf mc ax sc) (fun x s => step_ok hm.mem ax sc x s) _ _ _ _ _ _ hr ho
    refine ⟨hm.okN _ hk, ?_⟩
    have key : ∀ (l : List K) (a : Sim K E M) (a' : Sim K E' M'), Same κ Rr Rd Rm (· = 0) a a' →
        subLoop (ε := Empty) dtM0 (fun x s => .ok (stepOf mc ax sc x s)) fuel dt a l = some (.ok e, hs) →
        ∃ e', subLoop (ε := Empty) (κ * dtM0) (fun x s => .ok (stepOf mc' ax' sc x s)) fuel (κ * dt) a' (l.map (κ * ·)) =
          some (.ok e', hs.map (κ * ·)) ∧ Same κ Rr Rd Rm (· = 0) e e' := by
      clear h0 h0' hk h1 hr h
      induction fuel generalizing dt with
      | zero =>
        intro l a a' h1 hr
        rw [subLoop] at hr ⊢
        by_cases hd : dt > 0
        · rw [if_pos hd] at hr
          cases hr
        · rw [if_neg hd] at hr
          rw [if_neg (fun hc => hd ((mul_pos_iff_of_pos_left hκ).1 hc))]
          simp only [Option.some.injEq, Prod.mk.injEq, Except.ok.injEq] at hr
          exact ⟨a', by rw [hr.2], hr.1 ▸ h1⟩
      | succ f ih =>
        intro l a a' h1 hr
        rw [subLoop] at hr ⊢
        by_cases hd : dt > 0
        · rw [if_pos hd] at hr
          rw [if_pos (show κ * dt > 0 from mul_pos hκ hd)]
          have hk := subLoop_ok dtM0 (stepOf mc ax sc) (fun x s => step_ok hm.mem ax sc x s) _ _ _ _ _ _ hr ho
          have hx : (if κ * dtM0 < κ * dt then κ * dtM0 else κ * dt) = κ * (if dtM0 < dt then dtM0 else dt) := by
            have : κ * dtM0 < κ * dt ↔ dtM0 < dt := mul_lt_mul_iff_right₀ hκ
            by_cases hl : dtM0 < dt
            · rw [if_pos hl, if_pos (this.2 hl)]
            · rw [if_neg hl, if_neg (fun h => hl (this.1 h))]
          obtain ⟨e', h2, h3⟩ := ih (dt := dt - if dtM0 < dt then dtM0 else dt) _ _ _
            (same_step hm ha sc hsc rfl h1 hk).2 hr
          refine ⟨e', ?_, h3⟩
          simp only [hx]
          rw [mul_sub] at h2
          exact h2
        · rw [if_neg hd] at hr
          rw [if_neg (fun hc => hd ((mul_pos_iff_of_pos_left hκ).1 hc))]
          simp only [Option.some.injEq, Prod.mk.injEq, Except.ok.injEq] at hr
          exact ⟨a', by rw [hr.2], hr.1 ▸ h1⟩
    exact key [] _ _ h1 hr

end MD.Relate
