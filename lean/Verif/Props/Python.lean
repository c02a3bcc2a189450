import Verif.Model.Python
import Mathlib.Tactic.FinCases
import Mathlib.Data.List.Basic

/-!
# C95: what the functions of the Python module reach, and what they leave behind
-/

set_option linter.unusedSimpArgs false

namespace MD.Py

/-! ## Which function is reached -/

/-- The rule a reader of the help goes by: `moordyn.F` is the C function `MoorDyn_F`, two functions
for the external waves having a shorter name in Python. -/
def announced (name : String) : String :=
  if name = "GetWaveKinCoordinates" then "MoorDyn_ExternalWaveKinGetCoordinates"
  else if name = "SetWaveKin" then "MoorDyn_ExternalWaveKinSet"
  else "MoorDyn_" ++ name

/-- The functions that do not do what they announce. -/
def wrongOnes : List String :=
  ["ExternalWaveKinGetN", "GetWavesKin", "UseBodyVTK", "IsLinePressBend", "GetLineNodeSeabedForce"]

/-- C95: every function of the module but five, called with any number of arguments it declares,
reaches the C function it is named after; called with another number it is a TypeError. -/
theorem C95_reach (f : Fn) (hf : f ∈ moordyn) (n : ℕ) :
    (f.required ≤ n ∧ n ≤ f.params → f.name ∉ wrongOnes → call f n = .ok (announced f.name)) ∧
    (¬ (f.required ≤ n ∧ n ≤ f.params) → call f n = .exc .type) := by
  constructor
  · intro hn hw
    have hz : ∀ g ∈ moordyn, g.name ∉ wrongOnes → call g g.required = .ok (announced g.name) := by
      decide +kernel
    have := hz f hf hw
    unfold call at this ⊢
    have h1 : ¬ (n < f.required ∨ f.params < n) := by omega
    have h2 : ¬ (f.required < f.required ∨ f.params < f.required) := by omega
    rw [if_neg h1]
    rw [if_neg h2] at this
    exact this
  · intro h
    unfold call
    rw [if_pos (by omega)]

/-- C95: those functions give every argument the compiled module can take; and a call from elsewhere leaves out
arguments in three functions only, so that no variable of the others is used without having been set. -/
theorem C95_complete (c : CFn) (hc : c ∈ cmoordyn) :
    (c.least = c.most ∨ c.name ∈ ["create", "init", "waves_getkin"]) ∧
    ∀ f ∈ moordyn, f.callee = c.name → f.name ∉ wrongOnes → f.args.length = c.most := by
  have h1 : ∀ c ∈ cmoordyn, c.least = c.most ∨ c.name ∈ ["create", "init", "waves_getkin"] := by
    decide +kernel
  have h2 : ∀ c ∈ cmoordyn, ∀ f ∈ moordyn, f.callee = c.name → f.name ∉ wrongOnes →
      f.args.length = c.most := by decide +kernel
  exact ⟨h1 c hc, h2 c hc⟩

/-- C95: those functions hand on their own arguments, each one once and in order (`Init` and
`Init_NoIC` add the flag for the initial condition). -/
theorem C95_arguments (f : Fn) (hf : f ∈ moordyn) (hw : f.name ∉ wrongOnes) :
    ((f.args.take f.params).map fun a => match a with
      | .param i | .listOf i | .headed i | .flat i => some i
      | _ => none) = (List.range f.params).map some ∧
    (f.args.drop f.params = [] ∨
      f.name = "Init" ∧ f.args.drop f.params = [.const 0] ∨
      f.name = "Init_NoIC" ∧ f.args.drop f.params = [.const 1]) := by
  have : ∀ g ∈ moordyn, g.name ∉ wrongOnes →
      ((g.args.take g.params).map fun a => match a with
        | .param i | .listOf i | .headed i | .flat i => some i
        | _ => none) = (List.range g.params).map some ∧
      (g.args.drop g.params = [] ∨
        g.name = "Init" ∧ g.args.drop g.params = [.const 0] ∨
        g.name = "Init_NoIC" ∧ g.args.drop g.params = [.const 1]) := by decide +kernel
  exact this f hf hw

/-- C95: the instance each function asks for is the one its help announces, but for
`SetLinePressInt`, which announces the system and takes the line. -/
theorem C95_instance (f : Fn) (hf : f ∈ moordyn) (c : CFn) (hc : c ∈ cmoordyn)
    (hfc : c.name = f.callee) (h1 : f.name ≠ "SetLinePressInt") : f.doc = c.kind := by
  have : ∀ g ∈ moordyn, g.name ≠ "SetLinePressInt" → ∀ d ∈ cmoordyn, d.name = g.callee →
      g.doc = d.kind := by decide +kernel
  exact this f hf h1 c hc hfc

theorem C95_instance_false :
    ∃ f ∈ moordyn, ∃ c ∈ cmoordyn, f.name = "SetLinePressInt" ∧ c.name = f.callee ∧
      f.doc = some .moordyn ∧ c.kind = some .line := by decide +kernel

/-- C95, false for the kinematics of the water: every call of `moordyn.GetWavesKin`, with any number
of arguments, is a TypeError. -/
theorem C95_waves_false (n : ℕ) : callNamed "GetWavesKin" n = some (.exc .type) := by
  have h : moordyn.find? (fun f => f.name = "GetWavesKin") =
      some ⟨"GetWavesKin", 5, 6, "waves_getkin",
        [.param 0, .param 1, .param 2, .param 3, .param 4, .param 5], some .waves⟩ := by
    decide +kernel
  have hc : cmoordyn.find? (fun c => c.name = "waves_getkin") =
      some ⟨"waves_getkin", 4, 5, some .waves, "MoorDyn_GetWavesKin"⟩ := by decide +kernel
  unfold callNamed
  rw [h, Option.map_some]
  congr 1
  unfold call
  split
  · rfl
  · simp only [hc]
    simp

/-- C95, false: `moordyn.IsLinePressBend` and `moordyn.UseBodyVTK` fail whenever they are called as
announced; nothing is reached. -/
theorem C95_names_false :
    callNamed "IsLinePressBend" 1 = some (.exc .name) ∧
    callNamed "UseBodyVTK" 2 = some (.exc .attribute) := by decide +kernel

/-- No number of arguments makes `moordyn.IsLinePressBend` or `moordyn.UseBodyVTK` reach MoorDyn. -/
theorem C95_names_never (n : ℕ) (s : String) :
    callNamed "IsLinePressBend" n ≠ some (.ok s) ∧ callNamed "UseBodyVTK" n ≠ some (.ok s) := by
  have h1 : moordyn.find? (fun f => f.name = "IsLinePressBend") =
      some ⟨"IsLinePressBend", 1, 1, "line_is_pbend", [.free "b"], some .line⟩ := by decide +kernel
  have h2 : moordyn.find? (fun f => f.name = "UseBodyVTK") =
      some ⟨"UseBodyVTK", 2, 2, "use_save_vtk", [.param 0, .param 1], some .body⟩ := by
    decide +kernel
  have c1 : cmoordyn.find? (fun c => c.name = "line_is_pbend") =
      some ⟨"line_is_pbend", 1, 1, some .line, "MoorDyn_IsLinePressBend"⟩ := by decide +kernel
  have c2 : cmoordyn.find? (fun c => c.name = "use_save_vtk") = none := by decide +kernel
  constructor
  · unfold callNamed call
    rw [h1, Option.map_some]
    split
    · simp
    · simp [c1]
  · unfold callNamed call
    rw [h2, Option.map_some]
    split
    · simp
    · simp [c2]

/-- C95, false: the function that announces the reaction of the sea bed on a node of a line gives the
Froude-Krylov force, and the one for the number of points of the external waves sets them up
again. -/
theorem C95_other_false :
    callNamed "GetLineNodeSeabedForce" 2 = some (.ok "MoorDyn_GetLineNodeFroudeKrilov") ∧
    callNamed "GetLineNodeSeabedForce" 2 = callNamed "GetLineNodeFroudeKrilov" 2 ∧
    callNamed "ExternalWaveKinGetN" 1 = some (.ok "MoorDyn_ExternalWaveKinInit") := by decide +kernel

example : (moordyn.filter fun f => f.name ∉ wrongOnes).length = 82 ∧ moordyn.length = 87 := by
  decide +kernel

example : callNamed "Step" 5 = some (.ok "MoorDyn_Step") ∧
    callNamed "Init_NoIC" 3 = some (.ok "MoorDyn_Init_NoIC") ∧
    callNamed "Create" 0 = some (.ok "MoorDyn_Create") := by decide +kernel

/-! ## What the calls return and leave behind -/

variable {σ : Type}

theorem toDouble_map (xs : List ℚ) : toDouble (xs.map some) = some xs := by
  induction xs with
  | nil => rfl
  | cons x xs ih => simp [toDouble, ih]

theorem toDouble_some {xs : List (Option ℚ)} {ys : List ℚ} (h : toDouble xs = some ys) :
    xs = ys.map some := by
  induction xs generalizing ys with
  | nil => simp [toDouble] at h; simp [← h]
  | cons x xs ih =>
    cases x with
    | none => simp [toDouble] at h
    | some x =>
      simp only [toDouble, Option.map_eq_some_iff] at h
      obtain ⟨zs, hz, rfl⟩ := h
      simp [← ih hz]

/-- A sequence of exactly `n` numbers, with its values. -/
def Numbers (x : Obj) (n : ℕ) (xs : List ℚ) : Prop := x = .seq (xs.map some) ∧ xs.length = n

theorem twoLists_ok {n : ℕ} {x v : Obj} {xs vs : List ℚ} (hx : Numbers x n xs)
    (hv : Numbers v n vs) (w : World σ) :
    twoLists n x v w = (.ok (xs, vs), { w with arrays := w.arrays + 2 }) := by
  obtain ⟨rfl, hx⟩ := hx
  obtain ⟨rfl, hv⟩ := hv
  simp [twoLists, fast, hx, hv, toDouble_map, World.hold, World.drop, World.alloc]

theorem twoLists_bad {n : ℕ} {x v : Obj}
    (h : ¬ ((∃ xs, Numbers x n xs) ∧ ∃ vs, Numbers v n vs)) (w : World σ) :
    ∃ e w', (e = .type ∨ e = .value) ∧ twoLists n x v w = (.exc e, w') ∧ w'.sys = w.sys ∧
      w'.nones = w.nones := by
  unfold twoLists
  cases hx : fast x with
  | none => exact ⟨_, _, .inl rfl, rfl, rfl, rfl⟩
  | some xs =>
    simp only
    split
    · exact ⟨_, _, .inr rfl, rfl, rfl, rfl⟩
    cases hv : fast v with
    | none => exact ⟨_, _, .inl rfl, rfl, rfl, rfl⟩
    | some vs =>
      simp only
      split
      · exact ⟨_, _, .inr rfl, rfl, rfl, rfl⟩
      cases hxa : toDouble xs with
      | none =>
        cases hva : toDouble vs with
        | none => exact ⟨_, _, .inl rfl, rfl, rfl, rfl⟩
        | some va => exact ⟨_, _, .inl rfl, rfl, rfl, rfl⟩
      | some xa =>
        cases hva : toDouble vs with
        | none => exact ⟨_, _, .inl rfl, rfl, rfl, rfl⟩
        | some va =>
          exfalso
          rename_i h1 h2
          apply h
          have e1 := toDouble_some hxa
          have e2 := toDouble_some hva
          subst e1 e2
          have fx : x = .seq (xa.map some) := by
            cases x <;> simp_all [fast]
          have fv : v = .seq (va.map some) := by
            cases v <;> simp_all [fast]
          refine ⟨⟨xa, fx, ?_⟩, ⟨va, fv, ?_⟩⟩
          · simpa using h1
          · simpa using h2

/-- C95: with an open system and two sequences of as many numbers as there are coupled degrees of
freedom, `step` gives MoorDyn these numbers and returns its forces, as many, in order; what was taken
is given back, and no other system is touched. -/
theorem C95_step (api : Api σ) (w : World σ) (p : ℕ) (s : σ) (hs : w.sys p = some s)
    (x v : Obj) (xs vs : List ℚ) (hx : Numbers x (api.nDof s) xs) (hv : Numbers v (api.nDof s) vs)
    (t dt : ℚ) (h0 : (api.step s xs vs t dt).2.1 = 0) :
    ∃ f w', step api (.cap .moordyn p) x v t dt w = (.ok f, w') ∧
      f.length = api.nDof s ∧ (∀ i < api.nDof s, f[i]? = some ((api.step s xs vs t dt).2.2 i)) ∧
      w'.sys p = some (api.step s xs vs t dt).1 ∧ (∀ q ≠ p, w'.sys q = w.sys q) ∧
      w'.arrays = w.arrays ∧ w'.refs = w.refs ∧ w'.nones = w.nones := by
  refine ⟨(List.range (api.nDof s)).map (api.step s xs vs t dt).2.2,
    { w with sys := fun q => if q = p then some (api.step s xs vs t dt).1 else w.sys q }, ?_, ?_, ?_,
    ?_, ?_, rfl, rfl, rfl⟩
  · unfold step withSystem
    simp only [if_true, hs, twoLists_ok hx hv]
    simp [h0, World.alloc, World.put, World.free]
  · simp
  · intro i hi; simp [hi]
  · simp
  · intro q hq; simp [hq]

/-- C95: with anything else in their place nothing reaches MoorDyn: an exception is raised and every
system is as before. -/
theorem C95_step_refused (api : Api σ) (w : World σ) (c x v : Obj) (t dt : ℚ)
    (h : ∀ p s, c = .cap .moordyn p → w.sys p = some s →
      ¬ ((∃ xs, Numbers x (api.nDof s) xs) ∧ ∃ vs, Numbers v (api.nDof s) vs))
    (hopen : ∀ p, c = .cap .moordyn p → w.sys p ≠ none) :
    ∃ e w', (e = .type ∨ e = .value) ∧ step api c x v t dt w = (.exc e, w') ∧ w'.sys = w.sys := by
  unfold step withSystem
  cases c with
  | cap k p =>
    by_cases hk : k = .moordyn
    · subst hk
      cases hs : w.sys p with
      | none => exact absurd hs (hopen p rfl)
      | some s =>
        obtain ⟨e, w', he, ht, hsys, -⟩ := twoLists_bad (h p s rfl hs) w
        simp only [if_true, ht, hs]
        exact ⟨e, w', he, rfl, hsys⟩
    · simp only [if_neg hk]
      exact ⟨_, _, .inr rfl, rfl, rfl⟩
  | _ => exact ⟨_, _, .inr rfl, rfl, rfl⟩

/-- C95: the same for `Init` and `Init_NoIC`: the two sequences reach MoorDyn as they are. -/
theorem C95_init (api : Api σ) (noIC : Bool) (w : World σ) (p : ℕ) (s : σ) (hs : w.sys p = some s)
    (x v : Obj) (xs vs : List ℚ) (hx : Numbers x (api.nDof s) xs)
    (hv : Numbers v (api.nDof s) vs) :
    ∃ w', init api noIC (.cap .moordyn p) x v w = (.ok (api.init s noIC xs vs).2, w') ∧
      w'.sys p = some (api.init s noIC xs vs).1 ∧ (∀ q ≠ p, w'.sys q = w.sys q) ∧
      w'.arrays = w.arrays ∧ w'.refs = w.refs ∧ w'.nones = w.nones := by
  refine ⟨{ w with sys := fun q => if q = p then some (api.init s noIC xs vs).1 else w.sys q }, ?_,
    ?_, ?_, rfl, rfl, rfl⟩
  · unfold init withSystem
    simp only [if_true, hs, twoLists_ok hx hv]
    simp [World.put, World.free]
  · simp
  · intro q hq; simp [hq]

/-- C95, false of the manual ("the functions trigger exceptions if errors are detected"): an
initialisation that fails returns the error code like a success returns 0. -/
theorem C95_init_raises_false (api : Api σ) (noIC : Bool) (w : World σ) (p : ℕ) (s : σ)
    (hs : w.sys p = some s) (x v : Obj) (xs vs : List ℚ) (hx : Numbers x (api.nDof s) xs)
    (hv : Numbers v (api.nDof s) vs) (e : Exc) :
    (init api noIC (.cap .moordyn p) x v w).1 ≠ .exc e := by
  obtain ⟨w', h, -⟩ := C95_init api noIC w p s hs x v xs vs hx hv
  rw [h]
  simp

/-- C95: the kinematics of the external waves reach MoorDyn as given when there are three numbers for
each point. -/
theorem C95_ext_wave (api : Api σ) (w : World σ) (p : ℕ) (s : σ) (hs : w.sys p = some s)
    (u a : Obj) (us as : List ℚ) (hu : Numbers u (api.waveN s * 3) us)
    (ha : Numbers a (api.waveN s * 3) as) (t : ℚ) :
    ∃ w', extWaveSet api (.cap .moordyn p) u a t w = (.ok (api.waveSet s us as t).2, w') ∧
      w'.sys p = some (api.waveSet s us as t).1 ∧ w'.arrays = w.arrays ∧ w'.refs = w.refs := by
  refine ⟨{ w with sys := fun q => if q = p then some (api.waveSet s us as t).1 else w.sys q }, ?_,
    ?_, rfl, rfl⟩
  · unfold extWaveSet withSystem
    simp only [if_true, hs, twoLists_ok hu ha]
    simp [World.put, World.free]
  · simp

/-- C95, false: `ExternalWaveKinGetN` returns 0 whenever it returns, whatever the number of points. -/
theorem C95_ext_wave_n_false (api : Api σ) (c : Obj) (w w' : World σ) (k : ℤ)
    (h : ExternalWaveKinGetN api c w = (.ok k, w')) : k = 0 := by
  unfold ExternalWaveKinGetN extWaveInit withSystem at h
  cases c with
  | cap kd p =>
    simp only at h
    split at h
    · cases hs : w.sys p with
      | none => simp [hs] at h
      | some s =>
        simp only [hs] at h
        split at h
        · simp at h
        · rename_i h0
          simp only [Prod.mk.injEq, Res.ok.injEq] at h
          rw [← h.1]
          simpa using h0
    · simp at h
  | _ => simp at h

/-- The function below it gives the number of points. -/
theorem C95_ext_wave_n_partial (api : Api σ) (w : World σ) (p : ℕ) (s : σ) (hs : w.sys p = some s) :
    extWaveN api (.cap .moordyn p) w = (.ok (api.waveN s), w) := by
  simp [extWaveN, withSystem, hs]

/-- C95: the pressures of the nodes of a line reach MoorDyn when there is one for each node. -/
theorem C95_press (api : Api σ) (w : World σ) (p : ℕ) (s : σ) (hs : w.sys p = some s)
    (x : Obj) (xs : List ℚ) (hx : Numbers x (api.lineN s + 1) xs)
    (h0 : (api.pressInt s xs).2 = 0) :
    ∃ w', linePressInt api (.cap .line p) x w = (.ok (), w') ∧
      w'.sys p = some (api.pressInt s xs).1 ∧ w'.arrays = w.arrays ∧ w'.refs = w.refs ∧
      w'.nones = w.nones - 1 := by
  obtain ⟨rfl, hx⟩ := hx
  refine ⟨{ w with
    sys := fun q => if q = p then some (api.pressInt s xs).1 else w.sys q
    nones := w.nones - 1 }, ?_, ?_, rfl, rfl, rfl⟩
  · unfold linePressInt withSystem
    simp [hs, fast, hx, toDouble_map, h0, World.hold, World.alloc, World.drop, World.put, World.free,
      World.stealNone]
  · simp

/-! ## What is not given back -/

/-- `k` calls of the same kind one after the other. -/
def times {W : Type} (f : W → W) : ℕ → W → W
  | 0, w => w
  | k + 1, w => times f k (f w)

/-- C95, false: each `step` refused for the length of its first sequence keeps a reference to it: after
`k` of them `k` sequences are never released. -/
theorem C95_refused_leak_false (api : Api σ) (w : World σ) (p : ℕ) (s : σ) (hs : w.sys p = some s)
    (xs : List (Option ℚ)) (hx : xs.length ≠ api.nDof s) (v : Obj) (t dt : ℚ) (k : ℕ) :
    (times (fun w => (step api (.cap .moordyn p) (.seq xs) v t dt w).2) k w).refs = w.refs + k := by
  induction k generalizing w with
  | zero => rfl
  | succ k ih =>
    have h1 : (step api (.cap .moordyn p) (.seq xs) v t dt w).2 = w.hold := by
      simp [step, withSystem, hs, twoLists, fast, hx]
    simp only [times]
    rw [h1, ih w.hold hs]
    simp only [World.hold]
    omega

/-- C95, false: each `step` that MoorDyn reports as failed keeps the block of its forces. -/
theorem C95_failed_leak_false (api : Api σ) (w : World σ) (p : ℕ) (s : σ) (hs : w.sys p = some s)
    (x v : Obj) (xs vs : List ℚ) (t dt : ℚ)
    (hx : ∀ s, Numbers x (api.nDof s) xs) (hv : ∀ s, Numbers v (api.nDof s) vs)
    (hfail : ∀ s, (api.step s xs vs t dt).2.1 ≠ 0) (k : ℕ) :
    (times (fun w => (step api (.cap .moordyn p) x v t dt w).2) k w).arrays = w.arrays + k := by
  induction k generalizing w s with
  | zero => rfl
  | succ k ih =>
    have h1 : (step api (.cap .moordyn p) x v t dt w).2 =
        { w with
          sys := fun q => if q = p then some (api.step s xs vs t dt).1 else w.sys q
          arrays := w.arrays + 1 } := by
      simp only [step, withSystem, hs, twoLists_ok (hx s) (hv s), if_true]
      simp [hfail s, World.alloc, World.put, World.free]
    simp only [times]
    rw [h1, ih _ (api.step s xs vs t dt).1 (by simp)]
    simp only
    omega

/-- C95, false: an item that is not a number makes `step` keep the block of the other sequence. -/
theorem C95_item_leak_false (api : Api σ) (w : World σ) (p : ℕ) (s : σ) (hs : w.sys p = some s)
    (x : Obj) (xs : List ℚ) (hx : Numbers x (api.nDof s) xs) (vs : List (Option ℚ))
    (hv : vs.length = api.nDof s) (hbad : none ∈ vs) (t dt : ℚ) :
    step api (.cap .moordyn p) x (.seq vs) t dt w =
      (.exc .type, { w with arrays := w.arrays + 1 }) := by
  obtain ⟨rfl, hx⟩ := hx
  have hn : toDouble vs = none := by
    cases h : toDouble vs with
    | none => rfl
    | some ys => rw [toDouble_some h] at hbad; simp at hbad
  simp [step, withSystem, hs, twoLists, fast, hx, hv, toDouble_map, hn, World.hold, World.drop,
    World.alloc]

/-- C95, false: the functions that return `None` give away a reference they never took: after `k`
successful calls the interpreter is left with `k` references fewer. -/
theorem C95_none_false (kd : Kind) (op : σ → σ × ℤ) (w : World σ) (p : ℕ) (s : σ)
    (hs : w.sys p = some s) (hop : ∀ s, (op s).2 = 0) (k : ℕ) :
    (times (fun w => (noneCall kd op (.cap kd p) w).2) k w).nones = w.nones - k := by
  induction k generalizing w s with
  | zero => simp [times]
  | succ k ih =>
    have h1 : (noneCall kd op (.cap kd p) w).2 =
        { w with
          sys := fun q => if q = p then some (op s).1 else w.sys q
          nones := w.nones - 1 } := by
      simp [noneCall, withSystem, hs, hop s, World.put, World.stealNone]
    simp only [times]
    rw [h1, ih _ (op s).1 (by simp)]
    push_cast
    omega

/-- C95, false: so as many calls as there are references use up `None` itself. -/
theorem C95_none_used_up (kd : Kind) (op : σ → σ × ℤ) (w : World σ) (p : ℕ) (s : σ)
    (hs : w.sys p = some s) (hop : ∀ s, (op s).2 = 0) (hn : 0 ≤ w.nones) :
    ∃ k : ℕ, (times (fun w => (noneCall kd op (.cap kd p) w).2) k w).nones = 0 :=
  ⟨w.nones.toNat, by
    rw [C95_none_false kd op w p s hs hop]
    have := Int.toNat_of_nonneg hn
    omega⟩

/-- C95, false of safety: once a system is closed every further use of its handle, or of the handle of
one of its objects, is undefined: nothing marks the handle. -/
theorem C95_closed_false (api : Api σ) (w : World σ) (p : ℕ) (s : σ) (hs : w.sys p = some s)
    (x v : Obj) (t dt : ℚ) (kd : Kind) (op : σ → σ × ℤ) :
    (close (.cap .moordyn p) w).1 = .ok 0 ∧
    (step api (.cap .moordyn p) x v t dt (close (.cap .moordyn p) w).2).1 = .undef ∧
    (close (.cap .moordyn p) (close (.cap .moordyn p) w).2).1 = .undef ∧
    (noneCall kd op (.cap kd p) (close (.cap .moordyn p) w).2).1 = .undef := by
  simp [close, withSystem, hs, World.put, step, noneCall]

/-- C95: closing one system leaves every other one as it was. -/
theorem C95_close_other (w : World σ) (p q : ℕ) (s : σ) (hs : w.sys p = some s) (hq : q ≠ p) :
    (close (.cap .moordyn p) w).2.sys q = w.sys q := by
  simp [close, withSystem, hs, World.put, hq]

/-- C95, false: handing anything but bytes to `Deserialize` gives no explanation, a SystemError. -/
theorem C95_deserialize_false (op : List ℕ → σ → σ × ℤ) (w : World σ) (p : ℕ) (s : σ)
    (hs : w.sys p = some s) (xs : List (Option ℚ)) :
    deserialize op (.cap .moordyn p) (.seq xs) w = (.exc .system, w) := by
  simp [deserialize, withSystem, hs]

/-- C95: bytes reach MoorDyn as they are, however many there are. -/
theorem C95_deserialize (op : List ℕ → σ → σ × ℤ) (w : World σ) (p : ℕ) (s : σ)
    (hs : w.sys p = some s) (b : List ℕ) (h0 : (op b s).2 = 0) :
    (deserialize op (.cap .moordyn p) (.bytes b) w).1 = .ok () ∧
    (deserialize op (.cap .moordyn p) (.bytes b) w).2.sys p = some (op b s).1 := by
  simp [deserialize, noneCall, withSystem, hs, h0, World.put, World.stealNone]

/-- C95: `SetLinePressBend(line, True)` always switches the pressure bending on. -/
theorem C95_press_bend (given junk : ℕ) (h : given ≠ 0) :
    pressBendOn (pressBendFlag given junk) = true := by
  unfold pressBendOn pressBendFlag
  rw [decide_eq_true_eq]
  omega

/-- C95, false: `SetLinePressBend(line, False)` switches it off only when the memory under the flag
happened to hold zeros; otherwise it switches it on. -/
theorem C95_press_bend_false (junk : ℕ) :
    pressBendOn (pressBendFlag 0 junk) = false ↔ junk = 0 := by
  unfold pressBendOn pressBendFlag
  rw [decide_eq_false_iff_not]
  omega

/-! ## A case -/

/-- A system with two coupled degrees of freedom: the state counts the calls; a step with a negative
time step fails. -/
def toy : Api ℕ where
  nDof _ := 2
  init s _ _ _ := (s + 1, 0)
  step s x v _ dt := (s + 1, if dt < 0 then -6 else 0, fun i => x.getD i 0 + dt * v.getD i 0)
  waveInit s := (s, 0)
  waveN _ := 5
  waveSet s _ _ _ := (s, 0)
  lineN _ := 1
  pressInt s _ := (s, 0)

def toyWorld : World ℕ := ⟨fun q => if q = 7 then some 0 else none, 0, 0, 10⟩

example : (step toy (.cap .moordyn 7) (.seq [some 1, some 2]) (.seq [some 3, some 4]) 0 (1 / 2)
    toyWorld).1 = .ok [5 / 2, 4] := by decide +kernel

example : Numbers (.seq [some 1, some 2]) (toy.nDof 0) [1, 2] ∧ toyWorld.sys 7 = some 0 ∧
    (toy.step 0 [1, 2] [3, 4] 0 (1 / 2)).2.1 = 0 ∧
    ∀ s, (toy.step s [1, 2] [3, 4] 0 (-1)).2.1 ≠ 0 := by
  refine ⟨⟨rfl, rfl⟩, rfl, by decide +kernel, fun s => ?_⟩
  simp [toy]

example : (ExternalWaveKinGetN toy (.cap .moordyn 7) toyWorld).1 = .ok 0 ∧
    (extWaveN toy (.cap .moordyn 7) toyWorld).1 = .ok 5 := by decide +kernel

example : (step toy (.cap .line 7) (.seq [some 1, some 2]) (.seq [some 3, some 4]) 0 1 toyWorld).1 =
    .exc .value ∧
    (step toy (.cap .moordyn 7) (.seq [some 1, none]) (.seq [some 3, some 4]) 0 1 toyWorld).1 =
    .exc .type := by decide +kernel

end MD.Py
