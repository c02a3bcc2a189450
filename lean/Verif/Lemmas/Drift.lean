import Verif.Lemmas.Relate
import Verif.Props.Time
import Mathlib.Tactic.Module

/-!
# Two simulations of which one drifts steadily away from the other
-/

set_option linter.unusedSimpArgs false
set_option linter.unusedSectionVars false
set_option linter.unusedVariables false

namespace MD.Drift

open MD.Time
open MD.Relate (Remembers)

variable {K E M M' : Type} [Field K] [AddCommGroup E] [Module K E]

/-- The state of the second machine at time `τ` is `w + τ c` ahead; its rates are `c` more.  `Rm T` relates the objects
in a call that began at time `T`, `Pl T τ` those that have just been told their places for the time `τ`. -/
structure Drifts (w c : E) (ok : M → Prop) (mc : Machine K E M) (mc' : Machine K E M') (Rm : K → M → M' → Prop)
    (Pl : K → K → M → M' → Prop) : Prop where
  update : ∀ T tl e m m', Rm T m m' →
    Pl T (T + tl) (mc.update (T + tl) tl e m) (mc'.update (T + tl) tl (e + (w + (T + tl) • c)) m')
  weak : ∀ T τ m m', Pl T τ m m' → Rm T m m'
  rate : ∀ T τ m m', Pl T τ m m' → ok (mc.eval m).2 → (mc'.eval m').1 = (mc.eval m).1 + c
  eval : ∀ T τ m m', Pl T τ m m' → Rm T (mc.eval m).2 (mc'.eval m').2
  next : ∀ T m m', Rm T m m' → Rm T (mc.next m) (mc'.next m')

/-- What a scheme uses besides. -/
structure AuxDrifts (c : E) (ax ax' : Aux K E) : Prop where
  relax : ∀ i j, ax'.relax i j = ax.relax i j
  newmark : ∀ ga be a b h, ax'.newmark ga be (a + c) (b + c) h = ax.newmark ga be a b h + c
  sel : ∀ a b, ax'.sel (a + c) (b + c) = ax.sel a b + c
  ssub : ax.ssub = (· - ·)
  ssub' : ax'.ssub = (· - ·)
  conv : ∀ a b, ax'.conv (a.1 + c, a.2 + c) (b.1 + c, b.2 + c) = ax.conv a b

/-- A moment of the two simulations, `T` being the time at which the call began. -/
structure Tow (w c : E) (Rm : K → M → M' → Prop) (T off : K) (P : ℕ → K → Prop) (Q : ℕ → Prop) (s : Sim K E M) (s' : Sim K E M') :
    Prop where
  t : s'.t = s.t
  tl : s'.tl = s.tl
  clock : s.t = T + (s.tl + off)
  n : s'.n = s.n
  r : ∀ k x, P k x → s'.r k = s.r k + (w + (T + (s.tl + x)) • c)
  rd : ∀ k, Q k → s'.rd k = s.rd k + c
  m : Rm T s.m s'.m

/-- Heun's scheme looks at the state at the end of the step with the time of its beginning, and Wilson's has its clock
wrong. -/
def Tows : Scheme K → Prop
  | .heun => False
  | .wilson _ _ => False
  | _ => True

/-- The rates a scheme has from before: none, those of the last `n` steps, or all. -/
def Known (sc : Scheme K) (n : ℕ) (k : ℕ) : Prop :=
  match sc with
  | .euler => False
  | .rk2 => False
  | .rk4 => False
  | .ab _ => k < n ∧ k ≤ 4
  | _ => True

variable {w c : E} {ok : M → Prop} {mc : Machine K E M} {mc' : Machine K E M'} {ax ax' : Aux K E} {Rm : K → M → M' → Prop}
  {Pl : K → K → M → M' → Prop}
  {T off : K} {P : ℕ → K → Prop} {Q : ℕ → Prop} {s : Sim K E M} {s' : Sim K E M'}

theorem tow_weak {P' : ℕ → K → Prop} {Q' : ℕ → Prop} (h : Tow w c Rm T off P Q s s') (hP : ∀ k x, P' k x → P k x)
    (hQ : ∀ k, Q' k → Q k) : Tow w c Rm T off P' Q' s s' :=
  ⟨h.t, h.tl, h.clock, h.n, fun k x hk => h.r k x (hP k x hk), fun k hk => h.rd k (hQ k hk), h.m⟩

theorem tow_upd (hm : Drifts w c ok mc mc' Rm Pl) (h : Tow w c Rm T off P Q s s') (k : ℕ) (hk : P k off) :
    Tow w c Rm T off P Q (upd mc off k s) (upd mc' off k s') ∧ Pl T s.t (upd mc off k s).m (upd mc' off k s').m := by
  have h1 : Pl T s.t (upd mc off k s).m (upd mc' off k s').m := by
    show Pl T s.t (mc.update _ _ _ _) (mc'.update _ _ _ _)
    rw [h.t, h.tl, h.clock, h.r k off hk]
    exact hm.update _ _ _ _ _ h.m
  exact ⟨⟨h.t, h.tl, h.clock, h.n, h.r, h.rd, hm.weak _ _ _ _ h1⟩, h1⟩

theorem tow_setR (h : Tow w c Rm T off P Q s s') (k : ℕ) (x : K) {e e' : E} (he : e' = e + (w + (T + (s.tl + x)) • c)) :
    Tow w c Rm T off (fun j y => (j = k ∧ y = x) ∨ (j ≠ k ∧ P j y)) Q (setR k e s) (setR k e' s') := by
  refine ⟨h.t, h.tl, h.clock, h.n, ?_, h.rd, h.m⟩
  intro j y hj
  simp only [setR, Function.update_apply]
  split_ifs with h1
  · rcases hj with hj | hj
    · rw [he, hj.2]
    · exact absurd h1 hj.1
  · rcases hj with hj | hj
    · exact absurd hj.1 h1
    · exact h.r j y hj.2

theorem tow_setRd (h : Tow w c Rm T off P Q s s') (k : ℕ) {e e' : E} (he : e' = e + c) :
    Tow w c Rm T off P (fun j => j = k ∨ Q j) (setRd k e s) (setRd k e' s') := by
  refine ⟨h.t, h.tl, h.clock, h.n, h.r, ?_, h.m⟩
  intro j hj
  simp only [setRd, Function.update_apply]
  split_ifs with h1
  · exact he
  · exact h.rd j (by tauto)

theorem tow_clc (hm : Drifts w c ok mc mc' Rm Pl) (h : Tow w c Rm T off P Q s s') {τ : K} (hp : Pl T τ s.m s'.m) (k : ℕ)
    (ho : ok (mc.eval s.m).2) : Tow w c Rm T off P (fun j => j = k ∨ Q j) (clc mc k s) (clc mc' k s') := by
  refine ⟨h.t, h.tl, h.clock, h.n, h.r, ?_, hm.eval _ _ _ _ hp⟩
  intro j hj
  simp only [clc, Function.update_apply]
  split_ifs with h1
  · exact hm.rate _ _ _ _ hp ho
  · exact h.rd j (by tauto)

theorem tow_addT (h : Tow w c Rm T off P Q s s') (x : K) : Tow w c Rm T (off + x) P Q (addT x s) (addT x s') := by
  refine ⟨?_, h.tl, ?_, h.n, h.r, h.rd, h.m⟩
  · show s'.t + x = s.t + x
    rw [h.t]
  · show s.t + x = T + (s.tl + (off + x))
    rw [h.clock]
    ring

theorem tow_off (h : Tow w c Rm T off P Q s s') {x : K} (hx : off = x) : Tow w c Rm T x P Q s s' := hx ▸ h

theorem tow_ends (hm : Drifts w c ok mc mc' Rm Pl) {x dt : K} (hx : off + x = dt) (h : Tow w c Rm T off P Q s s') {e e' : E}
    (he : e' = e + (w + (T + (s.tl + dt)) • c)) :
    Tow w c Rm T 0 (fun k y => k = 0 ∧ y = 0) Q (fin dt (upd mc dt 0 (addT x (setR 0 e s))))
        (fin dt (upd mc' dt 0 (addT x (setR 0 e' s')))) ∧
      Pl T (fin dt (upd mc dt 0 (addT x (setR 0 e s)))).t (fin dt (upd mc dt 0 (addT x (setR 0 e s)))).m (fin dt (upd mc' dt 0 (addT x (setR 0 e' s')))).m := by
  obtain ⟨h1, h2⟩ := tow_upd hm (tow_off (tow_addT (tow_setR h 0 dt he) x) hx) 0 (Or.inl ⟨rfl, rfl⟩)
  refine ⟨⟨h1.t, ?_, ?_, h1.n, ?_, h1.rd, h1.m⟩, h2⟩
  · show s'.tl + dt = s.tl + dt
    rw [h.tl]
  · refine h1.clock.trans ?_
    show T + (s.tl + dt) = T + (s.tl + dt + 0)
    ring
  · rintro k y ⟨rfl, rfl⟩
    have := h1.r 0 dt (Or.inl ⟨rfl, rfl⟩)
    refine this.trans ?_
    show _ = (setR 0 e s).r 0 + (w + (T + (s.tl + dt + 0)) • c)
    rw [add_zero]
    rfl

theorem add_step {a b a' b' : E} {τ y z : K} (hz : y = τ + z) (ha : a' = a + (w + τ • c)) (hb : b' = b + c) :
    a' + z • b' = a + z • b + (w + y • c) := by
  subst ha hb hz
  module

theorem tow_mix {a b a' b' : E} (ha : a' = a + c) (hb : b' = b + c) (f : K) : mix a' b' f = mix a b f + c := by
  unfold mix
  subst ha hb
  module

theorem AuxDrifts.newmark' (ha : AuxDrifts c ax ax') (ga be h : K) {a b a' b' : E} (h1 : a' = a + c) (h2 : b' = b + c) :
    ax'.newmark ga be a' b' h = ax.newmark ga be a b h + c := by
  rw [h1, h2, ha.newmark]

theorem tow_shift (h : Tow w c Rm T off P (fun k => k < s.n ∧ k ≤ 4) s s') :
    Tow w c Rm T off P (fun k => k ≠ 0 ∧ k ≤ s.n ∧ k ≤ 4) (Time.shift s) (Time.shift s') := by
  refine ⟨h.t, h.tl, h.clock, h.n, h.r, ?_, h.m⟩
  rintro k ⟨h0, hk, h4⟩
  have h1 : ∀ (s : Sim K E M), (Time.shift s).rd k = s.rd 0 := by
    intro s
    have : k = 1 ∨ k = 2 ∨ k = 3 ∨ k = 4 := by omega
    rcases this with rfl | rfl | rfl | rfl <;> simp [Time.shift, setRd, Function.update]
  have h1' : ∀ (s : Sim K E M'), (Time.shift s).rd k = s.rd 0 := by
    intro s
    have : k = 1 ∨ k = 2 ∨ k = 3 ∨ k = 4 := by omega
    rcases this with rfl | rfl | rfl | rfl <;> simp [Time.shift, setRd, Function.update]
  rw [h1, h1']
  exact h.rd 0 ⟨by omega, by omega⟩

theorem tow_rk4 [CharZero K] (dt : K) {τ y : K} (hy : y = τ + dt) {r r' a a' b b' d d' f f' : E} (hr : r' = r + (w + τ • c))
    (ha : a' = a + c) (hb : b' = b + c) (hd : d' = d + c) (hf : f' = f + c) :
    r' + (dt / 6) • (a' + f') + (dt / 3) • (b' + d') = r + (dt / 6) • (a + f) + (dt / 3) • (b + d) + (w + y • c) := by
  subst hy hr ha hb hd hf
  module

theorem tow_ab [CharZero K] (n : ℕ) (dt τ : K) {r r' : E} (hr : r' = r + (w + τ • c)) {rd rd' : ℕ → E}
    (h : ∀ k ≤ n, k ≤ 4 → rd' k = rd k + c) :
    abFormula (· - ·) n dt r' rd' = abFormula (· - ·) n dt r rd + (w + (τ + dt) • c) := by
  subst hr
  unfold abFormula
  split
  · rw [h 0 (by omega) (by omega)]
    module
  · rw [h 0 (by omega) (by omega), h 1 (by omega) (by omega)]
    module
  · rw [h 0 (by omega) (by omega), h 1 (by omega) (by omega), h 2 (by omega) (by omega)]
    module
  · rw [h 0 (by omega) (by omega), h 1 (by omega) (by omega), h 2 (by omega) (by omega), h 3 (by omega) (by omega)]
    module
  · rename_i h0 h1 h2 h3
    have : 4 ≤ n := by
      by_contra hc
      have : n = 0 ∨ n = 1 ∨ n = 2 ∨ n = 3 := by omega
      rcases this with hn | hn | hn | hn
      exacts [h0 hn, h1 hn, h2 hn, h3 hn]
    rw [h 0 (by omega) (by omega), h 1 (by omega) (by omega), h 2 (by omega) (by omega), h 3 (by omega) (by omega),
      h 4 (by omega) (by omega)]
    module

/-- Between the steps. -/
abbrev Moment (w c : E) (Rm : K → M → M' → Prop) (T : K) (sc : Scheme K) (s : Sim K E M) (s' : Sim K E M') : Prop :=
  Tow w c Rm T 0 (fun k y => k = 0 ∧ y = 0) (Known sc s.n) s s'

theorem tow_foldl {α : Type} (f : Sim K E M → α → Sim K E M) (f' : Sim K E M' → α → Sim K E M')
    (hk : ∀ s i, ok (f s i).m → ok s.m)
    (hf : ∀ s s' i, Tow w c Rm T off P Q s s' → ok (f s i).m → Tow w c Rm T off P Q (f s i) (f' s' i)) (l : List α)
    (h : Tow w c Rm T off P Q s s') (ho : ok (l.foldl f s).m) : Tow w c Rm T off P Q (l.foldl f s) (l.foldl f' s') := by
  have hl : ∀ (l : List α) (s : Sim K E M), ok (l.foldl f s).m → ok s.m := by
    intro l
    induction l with
    | nil => exact fun _ h => h
    | cons i l ih => exact fun s h => hk s i (ih _ h)
  induction l generalizing s s' with
  | nil => exact h
  | cons i l ih => exact ih (hf _ _ _ h (hl l _ ho)) ho

theorem tow_impBody (hm : Drifts w c ok mc mc' Rm Pl) (ha : AuxDrifts c ax ax') (iters : ℕ) (fac dt : K) (i : ℕ)
    (h : Tow w c Rm T (fac * dt) (fun k y => k = 0 ∧ y = 0) (fun _ => True) s s')
    (ho : ok (impBody mc ax iters fac dt i s).m) :
    Tow w c Rm T (fac * dt) (fun k y => k = 0 ∧ y = 0) (fun _ => True) (impBody mc ax iters fac dt i s)
      (impBody mc' ax' iters fac dt i s') := by
  have h1 := tow_setR h 1 (fac * dt) (add_step (z := fac * dt) (by ring) (h.r 0 0 ⟨rfl, rfl⟩) (h.rd 0 trivial))
  obtain ⟨h2, hp⟩ := tow_upd hm h1 1 (Or.inl ⟨rfl, rfl⟩)
  rw [Relate.impBody_m] at ho
  have h3 := tow_clc hm h2 hp 0 ho
  have hP : ∀ (k : ℕ) (y : K), k = 0 ∧ y = 0 → (k = 1 ∧ y = fac * dt) ∨ (k ≠ 1 ∧ k = 0 ∧ y = 0) :=
    fun k y hk => Or.inr ⟨by omega, hk⟩
  unfold impBody
  dsimp only
  by_cases hi : i < iters - 1
  · rw [if_pos hi, if_pos hi, ha.relax]
    have h4 := tow_setRd h3 0 (tow_mix (h3.rd 0 (Or.inr trivial)) (h3.rd 1 (Or.inr trivial)) (ax.relax iters i))
    exact tow_weak (tow_setRd h4 1 (h4.rd 0 (Or.inl rfl))) hP fun k _ => Or.inr (Or.inr (Or.inr trivial))
  · rw [if_neg hi, if_neg hi]
    exact tow_weak h3 hP fun k _ => Or.inr trivial

theorem tow_newmarkBody (hm : Drifts w c ok mc mc' Rm Pl) (ha : AuxDrifts c ax ax') (iters : ℕ) (ga be dt : K) (i : ℕ)
    (h : Tow w c Rm T dt (fun k y => k = 0 ∧ y = 0) (fun _ => True) s s')
    (ho : ok (newmarkBody mc ax iters ga be dt i s).m) :
    Tow w c Rm T dt (fun k y => k = 0 ∧ y = 0) (fun _ => True) (newmarkBody mc ax iters ga be dt i s)
      (newmarkBody mc' ax' iters ga be dt i s') := by
  have h1 := tow_setR h 1 dt (add_step (z := dt) (by ring) (h.r 0 0 ⟨rfl, rfl⟩)
    (show ax'.newmark ga be (s'.rd 0) (s'.rd 1) dt = ax.newmark ga be (s.rd 0) (s.rd 1) dt + c by
      rw [h.rd 0 trivial, h.rd 1 trivial, ha.newmark]))
  obtain ⟨h2, hp⟩ := tow_upd hm h1 1 (Or.inl ⟨rfl, rfl⟩)
  rw [Relate.newmarkBody_m] at ho
  have h3 := tow_clc hm h2 hp 1 ho
  have hP : ∀ (k : ℕ) (y : K), k = 0 ∧ y = 0 → (k = 1 ∧ y = dt) ∨ (k ≠ 1 ∧ k = 0 ∧ y = 0) :=
    fun k y hk => Or.inr ⟨by omega, hk⟩
  unfold newmarkBody
  dsimp only
  by_cases hi : i < iters - 1
  · rw [if_pos hi, if_pos hi, ha.relax]
    have h4 := tow_setRd h3 1 (tow_mix (h3.rd 1 (Or.inr trivial)) (h3.rd 2 (Or.inr trivial)) (ax.relax iters i))
    exact tow_weak (tow_setRd h4 2 (h4.rd 1 (Or.inl rfl))) hP fun k _ => Or.inr (Or.inr (Or.inr trivial))
  · rw [if_neg hi, if_neg hi]
    exact tow_weak h3 hP fun k _ => Or.inr trivial

theorem tow_andLoop (hm : Drifts w c ok mc mc' Rm Pl) (hr : Remembers ok mc) (ha : AuxDrifts c ax ax') (iters : ℕ) (fac dt : K)
    (k : ℕ) (hk : k ≤ iters) (g0 g0' : E × E) (h0 : k < iters → g0' = (g0.1 + c, g0.2 + c))
    (h : Tow w c Rm T (fac * dt) (fun k y => k = 0 ∧ y = 0) (fun _ => True) s s')
    (ho : ok (andLoop mc ax iters fac dt k g0 s).m) :
    Tow w c Rm T (fac * dt) (fun k y => k = 0 ∧ y = 0) (fun _ => True) (andLoop mc ax iters fac dt k g0 s)
      (andLoop mc' ax' iters fac dt k g0' s') := by
  induction k generalizing s s' g0 g0' with
  | zero => exact h
  | succ k ih =>
    have h1 := tow_setR h 1 (fac * dt) (add_step (z := fac * dt) (by ring) (h.r 0 0 ⟨rfl, rfl⟩) (h.rd 0 trivial))
    obtain ⟨h2, hp⟩ := tow_upd hm h1 1 (Or.inl ⟨rfl, rfl⟩)
    have hk' : ok (clc mc 0 (upd mc (fac * dt) 1 (setR 1 (s.r 0 + (fac * dt) • s.rd 0) s))).m := by
      unfold andLoop at ho
      dsimp only at ho
      split_ifs at ho
      · exact ho
      · exact (show ok (setRd 1 _ (setRd 0 _ (clc mc 0 (upd mc (fac * dt) 1 (setR 1 (s.r 0 + (fac * dt) • s.rd 0) s))))).m
          from Relate.ok_andLoop hr _ _ _ _ _ _ ho)
      · exact ho
    have h3 := tow_clc hm h2 hp 0 hk'
    have hP : ∀ (k : ℕ) (y : K), k = 0 ∧ y = 0 → (k = 1 ∧ y = fac * dt) ∨ (k ≠ 1 ∧ k = 0 ∧ y = 0) :=
      fun k y hk => Or.inr ⟨by omega, hk⟩
    unfold andLoop at ho ⊢
    dsimp only at ho ⊢
    by_cases hi : iters - (k + 1) < iters - 1
    · rw [if_pos hi] at ho
      rw [if_pos hi, if_pos hi, ha.relax]
      have h4 := tow_setRd h3 0 (tow_mix (h3.rd 0 (Or.inr trivial)) (h3.rd 1 (Or.inr trivial)) (ax.relax iters (iters - (k + 1))))
      have h5 := tow_weak (tow_setRd h4 1 (h4.rd 0 (Or.inl rfl))) hP
        (Q' := fun _ => True) fun k _ => Or.inr (Or.inr (Or.inr trivial))
      have e1 := h3.rd 1 (Or.inr trivial)
      have e0 := h3.rd 0 (Or.inr trivial)
      have h6 : firstRes (iters - (k + 1)) ((clc mc' 0 (upd mc' (fac * dt) 1 (setR 1 (s'.r 0 + (fac * dt) • s'.rd 0) s'))).rd 1,
          (clc mc' 0 (upd mc' (fac * dt) 1 (setR 1 (s'.r 0 + (fac * dt) • s'.rd 0) s'))).rd 0) g0' =
          ((firstRes (iters - (k + 1)) ((clc mc 0 (upd mc (fac * dt) 1 (setR 1 (s.r 0 + (fac * dt) • s.rd 0) s))).rd 1,
            (clc mc 0 (upd mc (fac * dt) 1 (setR 1 (s.r 0 + (fac * dt) • s.rd 0) s))).rd 0) g0).1 + c,
           (firstRes (iters - (k + 1)) ((clc mc 0 (upd mc (fac * dt) 1 (setR 1 (s.r 0 + (fac * dt) • s.rd 0) s))).rd 1,
            (clc mc 0 (upd mc (fac * dt) 1 (setR 1 (s.r 0 + (fac * dt) • s.rd 0) s))).rd 0) g0).2 + c) := by
        unfold firstRes
        by_cases hz : iters - (k + 1) = 0
        · rw [if_pos hz, if_pos hz, e1, e0]
        · rw [if_neg hz, if_neg hz]
          exact h0 (by omega)
      have h7 := ha.conv (firstRes (iters - (k + 1)) ((clc mc 0 (upd mc (fac * dt) 1 (setR 1 (s.r 0 + (fac * dt) • s.rd 0) s))).rd 1,
            (clc mc 0 (upd mc (fac * dt) 1 (setR 1 (s.r 0 + (fac * dt) • s.rd 0) s))).rd 0) g0)
          ((clc mc 0 (upd mc (fac * dt) 1 (setR 1 (s.r 0 + (fac * dt) • s.rd 0) s))).rd 1,
            (clc mc 0 (upd mc (fac * dt) 1 (setR 1 (s.r 0 + (fac * dt) • s.rd 0) s))).rd 0)
      dsimp only at h7
      rw [← h6, ← e1, ← e0] at h7
      rw [h7]
      split_ifs at ho ⊢
      · exact h5
      · exact ih (by omega) _ _ (fun _ => h6) h5 ho
    · rw [if_neg hi, if_neg hi]
      exact tow_weak h3 hP fun k _ => Or.inr trivial

/-- One step. -/
theorem tow_step [CharZero K] (hm : Drifts w c ok mc mc' Rm Pl) (hr : Remembers ok mc) (ha : AuxDrifts c ax ax') (sc : Scheme K)
    (hsc : Tows sc) (dt : K) (h : Moment w c Rm T sc s s') (ho : ok (stepOf mc ax sc dt s).m) :
    Moment w c Rm T sc (stepOf mc ax sc dt s) (stepOf mc' ax' sc dt s') ∧
      Pl T (stepOf mc ax sc dt s).t (stepOf mc ax sc dt s).m (stepOf mc' ax' sc dt s').m := by
  have h00 : (fun (k : ℕ) (y : K) => k = 0 ∧ y = 0) 0 0 := ⟨rfl, rfl⟩
  cases sc with
  | euler =>
    have k1 := hr.okU _ _ _ _ ho
    obtain ⟨h1, hp⟩ := tow_upd hm h 0 h00
    have h2 := tow_clc hm h1 hp 0 k1
    obtain ⟨h3, h4⟩ := tow_ends hm (zero_add dt) h2 (add_step (z := dt) (by ring) (h2.r 0 0 h00) (h2.rd 0 (Or.inl rfl)))
    exact ⟨tow_weak h3 (fun _ _ hk => hk) fun _ hk => hk.elim, h4⟩
  | leuler =>
    have k1 := hr.okU _ _ _ _ ho
    obtain ⟨h1, hp⟩ := tow_upd hm h 0 h00
    have h2 : Tow w c Rm T 0 (fun k y => k = 0 ∧ y = 0) (fun _ => True) (clcSel mc ax 0 (upd mc 0 0 s))
        (clcSel mc' ax' 0 (upd mc' 0 0 s')) := by
      refine ⟨h1.t, h1.tl, h1.clock, h1.n, h1.r, ?_, hm.eval _ _ _ _ hp⟩
      intro j _
      simp only [clcSel, Function.update_apply]
      split_ifs with hj
      · rw [hm.rate _ _ _ _ hp k1, h1.rd 0 trivial, ha.sel]
      · exact h1.rd j trivial
    obtain ⟨h3, h4⟩ := tow_ends hm (zero_add dt) h2 (add_step (z := dt) (by ring) (h2.r 0 0 h00) (h2.rd 0 trivial))
    exact ⟨tow_weak h3 (fun _ _ hk => hk) fun _ _ => trivial, h4⟩
  | heun => exact hsc.elim
  | rk2 =>
    have k2 := hr.okU _ _ _ _ ho
    have k1 := hr.okU _ _ _ _ (hr.okE _ k2)
    obtain ⟨h1, hp1⟩ := tow_upd hm h 0 h00
    have h2 := tow_off (tow_addT (tow_clc hm h1 hp1 0 k1) (1 / 2 * dt)) (zero_add _)
    have h3 := tow_setR h2 1 (1 / 2 * dt) (add_step (z := 1 / 2 * dt) (by ring) (h2.r 0 0 h00) (h2.rd 0 (Or.inl rfl)))
    obtain ⟨h4, hp4⟩ := tow_upd hm h3 1 (Or.inl ⟨rfl, rfl⟩)
    have h5 := tow_clc hm h4 hp4 1 k2
    obtain ⟨h6, h7⟩ := tow_ends hm (show 1 / 2 * dt + 1 / 2 * dt = dt by ring) h5
      (add_step (z := dt) (by ring) (h5.r 0 0 (Or.inr ⟨by decide, rfl, rfl⟩)) (h5.rd 1 (Or.inl rfl)))
    exact ⟨tow_weak h6 (fun _ _ hk => hk) fun _ hk => hk.elim, h7⟩
  | rk4 =>
    have k4 := hr.okU _ _ _ _ ho
    have k3 := hr.okU _ _ _ _ (hr.okE _ k4)
    have k2 := hr.okU _ _ _ _ (hr.okE _ k3)
    have k1 := hr.okU _ _ _ _ (hr.okE _ k2)
    obtain ⟨h1, hp1⟩ := tow_upd hm h 0 h00
    have h2 := tow_off (tow_addT (tow_clc hm h1 hp1 0 k1) (1 / 2 * dt)) (zero_add _)
    have h3 := tow_setR h2 1 (1 / 2 * dt) (add_step (z := 1 / 2 * dt) (by ring) (h2.r 0 0 h00) (h2.rd 0 (Or.inl rfl)))
    obtain ⟨h4, hp4⟩ := tow_upd hm h3 1 (Or.inl ⟨rfl, rfl⟩)
    have h5 := tow_clc hm h4 hp4 1 k2
    have h6 := tow_setR h5 1 (1 / 2 * dt)
      (add_step (z := 1 / 2 * dt) (by ring) (h5.r 0 0 (Or.inr ⟨by decide, rfl, rfl⟩)) (h5.rd 1 (Or.inl rfl)))
    obtain ⟨h7, hp7⟩ := tow_upd hm h6 1 (Or.inl ⟨rfl, rfl⟩)
    have h8 := tow_off (tow_addT (tow_clc hm h7 hp7 2 k3) (1 / 2 * dt)) (show 1 / 2 * dt + 1 / 2 * dt = dt by ring)
    have h9 := tow_setR h8 2 dt
      (add_step (z := dt) (by ring) (h8.r 0 0 (Or.inr ⟨by decide, Or.inr ⟨by decide, rfl, rfl⟩⟩)) (h8.rd 2 (Or.inl rfl)))
    obtain ⟨h10, hp10⟩ := tow_upd hm h9 2 (Or.inl ⟨rfl, rfl⟩)
    have h11 := tow_clc hm h10 hp10 3 k4
    have e0 := h11.r 0 0 (Or.inr ⟨by decide, Or.inr ⟨by decide, Or.inr ⟨by decide, rfl, rfl⟩⟩⟩)
    have d0 := h11.rd 0 (by simp)
    have d1 := h11.rd 1 (by simp)
    have d2 := h11.rd 2 (by simp)
    have d3 := h11.rd 3 (by simp)
    obtain ⟨h12, h13⟩ := tow_ends (x := 0) hm (add_zero dt) h11 (tow_rk4 dt (by ring) e0 d0 d1 d2 d3)
    have z : ∀ {M : Type} (a : Sim K E M), addT 0 a = a := by
      intro M a
      simp only [addT, add_zero]
    rw [z, z] at h12 h13
    exact ⟨tow_weak h12 (fun _ _ hk => hk) fun _ hk => hk.elim, h13⟩
  | ab order =>
    have k1 := hr.okU _ _ _ _ ho
    obtain ⟨h1, hp⟩ := tow_upd hm h 0 h00
    have h2 := tow_clc hm (tow_shift h1) hp 0 k1
    have e : abFormula ax'.ssub (clc mc' 0 (Time.shift (upd mc' 0 0 s'))).n dt ((clc mc' 0 (Time.shift (upd mc' 0 0 s'))).r 0)
        (clc mc' 0 (Time.shift (upd mc' 0 0 s'))).rd =
        abFormula ax.ssub (clc mc 0 (Time.shift (upd mc 0 0 s))).n dt ((clc mc 0 (Time.shift (upd mc 0 0 s))).r 0)
          (clc mc 0 (Time.shift (upd mc 0 0 s))).rd + (w + (T + (s.tl + dt)) • c) := by
      rw [ha.ssub, ha.ssub', h2.n]
      have := tow_ab (clc mc 0 (Time.shift (upd mc 0 0 s))).n dt _ (h2.r 0 0 h00) (rd := (clc mc 0 (Time.shift (upd mc 0 0 s))).rd)
        (rd' := (clc mc' 0 (Time.shift (upd mc' 0 0 s'))).rd) (fun k hk h4 => h2.rd k (by
          by_cases h0 : k = 0
          · exact Or.inl h0
          · exact Or.inr ⟨h0, hk, h4⟩))
      rw [this]
      have e2 : T + ((clc mc 0 (Time.shift (upd mc 0 0 s))).tl + 0) + dt = T + (s.tl + dt) := by
        show T + (s.tl + 0) + dt = T + (s.tl + dt)
        ring
      rw [e2]
    have h3 : Tow w c Rm T 0 (fun k y => k = 0 ∧ y = 0) (fun k => k < min (s.n + 1) order ∧ k ≤ 4)
        { clc mc 0 (Time.shift (upd mc 0 0 s)) with n := min (s.n + 1) order }
        { clc mc' 0 (Time.shift (upd mc' 0 0 s')) with n := min (s'.n + 1) order } := by
      refine ⟨h2.t, h2.tl, h2.clock, by simp only; rw [h.n], h2.r, ?_, h2.m⟩
      rintro k ⟨hk, h4⟩
      refine h2.rd k ?_
      by_cases h0 : k = 0
      · exact Or.inl h0
      · exact Or.inr ⟨h0, by show k ≤ s.n; omega, h4⟩
    exact tow_ends hm (zero_add dt) h3 e
  | impEuler iters fac =>
    have h1 := tow_off (tow_addT h (fac * dt)) (zero_add _)
    have h2 := tow_weak (tow_setRd h1 1 (h1.rd 0 trivial)) (P' := fun k y => k = 0 ∧ y = 0) (Q' := fun _ => True)
      (fun _ _ hk => hk) fun _ _ => Or.inr trivial
    have h3 := tow_foldl _ _ (fun a i ho' => hr.okU _ _ _ _ (hr.okE _ (Relate.impBody_m mc ax iters fac dt i a ▸ ho')))
      (fun a a' i ha' => tow_impBody hm ha iters fac dt i ha') (List.range iters) h2 (hr.okU _ _ _ _ ho)
    exact tow_ends hm (show fac * dt + (1 - fac) * dt = dt by ring) h3
      (add_step (z := dt) (by ring) (h3.r 0 0 h00) (h3.rd 0 trivial))
  | anderson iters fac =>
    have h1 := tow_off (tow_addT h (fac * dt)) (zero_add _)
    have h3 := tow_andLoop hm hr ha iters fac dt iters le_rfl (0, 0) (0, 0) (fun hk => absurd hk (lt_irrefl _)) h1
      (hr.okU _ _ _ _ ho)
    exact tow_ends hm (show fac * dt + (1 - fac) * dt = dt by ring) h3
      (add_step (z := dt) (by ring) (h3.r 0 0 h00) (h3.rd 0 trivial))
  | newmark iters ga be =>
    have h1 := tow_off (tow_addT (tow_setRd h 1 (h.rd 0 trivial)) dt) (zero_add _)
    have h2 := tow_weak (tow_setRd h1 2 (h1.rd 0 (Or.inr trivial))) (P' := fun k y => k = 0 ∧ y = 0) (Q' := fun _ => True)
      (fun _ _ hk => hk) fun _ _ => Or.inr (Or.inr trivial)
    have h3 := tow_foldl _ _ (fun a i ho' => hr.okU _ _ _ _ (hr.okE _ (Relate.newmarkBody_m mc ax iters ga be dt i a ▸ ho')))
      (fun a a' i ha' => tow_newmarkBody hm ha iters ga be dt i ha') (List.range iters) h2 (hr.okU _ _ _ _ ho)
    have h4 := tow_setR h3 1 dt (add_step (z := dt) (by ring) (h3.r 0 0 h00)
      (ha.newmark' ga be dt (h3.rd 0 trivial) (h3.rd 1 trivial)))
    have h5 := tow_setRd h4 0 (h4.rd 1 trivial)
    have e := h4.r 1 dt (Or.inl ⟨rfl, rfl⟩)
    obtain ⟨h6, h7⟩ := tow_ends (x := 0) hm (add_zero dt) h5 e
    have z : ∀ {M : Type} (a : Sim K E M), addT 0 a = a := by
      intro M a
      simp only [addT, add_zero]
    rw [z, z] at h6 h7
    exact ⟨tow_weak h6 (fun _ _ hk => hk) fun _ _ => Or.inr trivial, h7⟩
  | wilson iters th => exact hsc.elim

variable [LinearOrder K] [IsStrictOrderedRing K]

/-- The internal steps of one call, which begins at time `T`; it ends at `T + dt`. -/
theorem tow_loop (hm : Drifts w c ok mc mc' Rm Pl) (hr : Remembers ok mc) (ha : AuxDrifts c ax ax') (sc : Scheme K)
    (hsc : Tows sc) (dtM0 : K) (fuel : ℕ) (dt : K) (hd : 0 ≤ dt) (l : List K) (h : Moment w c Rm T sc s s') (e : Sim K E M)
    (hs : List K)
    (he : subLoop (ε := Empty) dtM0 (fun x s => .ok (stepOf mc ax sc x s)) fuel dt s l = some (.ok e, hs)) (ho : ok e.m) :
    ∃ e', subLoop (ε := Empty) dtM0 (fun x s => .ok (stepOf mc' ax' sc x s)) fuel dt s' l = some (.ok e', hs) ∧
      Moment w c Rm T sc e e' ∧ e.t = s.t + dt ∧ (0 < dt → Pl T e.t e.m e'.m) := by
  have stop : ∀ {fuel : ℕ} {dt : K} {s : Sim K E M} {s' : Sim K E M'} {l : List K}, 0 ≤ dt → Moment w c Rm T sc s s' →
      ¬ dt > 0 → subLoop (ε := Empty) dtM0 (fun x s => .ok (stepOf mc ax sc x s)) fuel dt s l = some (.ok e, hs) →
      ∃ e', subLoop (ε := Empty) dtM0 (fun x s => .ok (stepOf mc' ax' sc x s)) fuel dt s' l = some (.ok e', hs) ∧
        Moment w c Rm T sc e e' ∧ e.t = s.t + dt ∧ (0 < dt → Pl T e.t e.m e'.m) ∧ s = e ∧ e' = s' := by
    intro fuel dt s s' l hd h h0 he
    unfold subLoop at he ⊢
    rw [if_neg h0] at he ⊢
    simp only [Option.some.injEq, Prod.mk.injEq, Except.ok.injEq] at he
    refine ⟨s', by rw [he.2], he.1 ▸ h, ?_, fun hc => absurd hc h0, he.1, rfl⟩
    rw [le_antisymm (not_lt.1 h0) hd, add_zero, he.1]
  induction fuel generalizing dt s s' l with
  | zero =>
    by_cases h0 : dt > 0
    · unfold subLoop at he
      rw [if_pos h0] at he
      cases he
    · obtain ⟨e', h1, h2, h3, h4, -⟩ := stop hd h h0 he
      exact ⟨e', h1, h2, h3, h4⟩
  | succ f ih =>
    by_cases h0 : dt > 0
    · unfold subLoop at he ⊢
      rw [if_pos h0] at he ⊢
      have hk := Relate.subLoop_ok dtM0 (stepOf mc ax sc) (fun x s => Relate.step_ok hr ax sc x s) _ _ _ _ _ _ he ho
      obtain ⟨h1, h2⟩ := tow_step hm hr ha sc hsc (if dtM0 < dt then dtM0 else dt) h hk
      have hx : 0 ≤ dt - (if dtM0 < dt then dtM0 else dt) := by
        split_ifs with hl
        · exact sub_nonneg.2 hl.le
        · rw [sub_self]
      have ht := (C07_time_advance_partial mc ax sc (if dtM0 < dt then dtM0 else dt) s
        (by rintro i th rfl; exact hsc)).1
      by_cases h3 : dt - (if dtM0 < dt then dtM0 else dt) > 0
      · obtain ⟨e', h4, h5, h6, h7⟩ := ih _ hx _ h1 he
        refine ⟨e', h4, h5, ?_, fun _ => h7 h3⟩
        rw [h6, ht]
        ring
      · obtain ⟨e', h4, h5, h6, h7, h8, h9⟩ := stop hx h1 h3 he
        refine ⟨e', h4, h5, ?_, fun _ => ?_⟩
        · rw [h6, ht]
          ring
        · rw [h9, ← h8]
          exact h2
    · obtain ⟨e', h1, h2, h3, h4, -⟩ := stop hd h h0 he
      exact ⟨e', h1, h2, h3, h4⟩

end MD.Drift
