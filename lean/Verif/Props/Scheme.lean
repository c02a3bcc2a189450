import Mathlib.Tactic.Ring
import Mathlib.Tactic.Linarith
import Mathlib.Tactic.NormNum
import Verif.Model.Scheme
import Verif.Props.Text

/-!
# Names of the time schemes and switching (C55, C11)
-/

set_option linter.unusedSimpArgs false
set_option linter.unusedVariables false

namespace MD.Scheme

open MD.Text MD.Time

/-! ## Lower case -/

theorem toNat_ofNat (n : ℕ) (h : n.isValidChar) : (Char.ofNat n).toNat = n := by
  rw [Char.toNat, Char.ofNat, dif_pos h]
  simp [Char.ofNatAux]

theorem toLower_isDigit (c : Char) : isDigit (toLower c) = isDigit c := by
  unfold toLower
  split_ifs with h
  · have h2 : 65 ≤ c.toNat ∧ c.toNat ≤ 90 := by simpa [isUpper] using h
    have hv : (c.toNat + 32).isValidChar := by left; omega
    have e : (Char.ofNat (c.toNat + 32)).toNat = c.toNat + 32 := by
      exact toNat_ofNat _ hv
    simp only [isDigit, e]
    have a : ¬ c.toNat ≤ 57 := by omega
    have b : ¬ c.toNat + 32 ≤ 57 := by omega
    simp [a, b]
  · rfl

theorem toLower_of_not_upper (c : Char) (h : isUpper c = false) : toLower c = c := by
  unfold toLower; simp [h]

theorem toLower_upper (c : Char) (h : isUpper c = true) :
    (toLower c).toNat = c.toNat + 32 ∧ 65 ≤ c.toNat ∧ c.toNat ≤ 90 := by
  have h2 : 65 ≤ c.toNat ∧ c.toNat ≤ 90 := by simpa [isUpper] using h
  have hv : (c.toNat + 32).isValidChar := by left; omega
  refine ⟨?_, h2⟩
  unfold toLower
  rw [if_pos h, toNat_ofNat _ hv]

theorem toLower_isSpace (c : Char) : isSpace (toLower c) = isSpace c := by
  by_cases h : isUpper c = true
  · obtain ⟨e, h1, h2⟩ := toLower_upper c h
    have key : ∀ d : Char, (d.toNat ≤ 32) → decide (toLower c = d) = decide (c = d) := by
      intro d hd
      have a : toLower c ≠ d := fun k => by rw [k] at e; omega
      have b : c ≠ d := fun k => by rw [k] at h1; omega
      simp [a, b]
    unfold isSpace
    rw [key ' ' (by decide), key '\t' (by decide), key '\n' (by decide), key '\x0b' (by decide),
      key '\x0c' (by decide), key '\r' (by decide)]
  · rw [toLower_of_not_upper c (by simpa using h)]

theorem toLower_sign (c d : Char) (hd : d.toNat ≤ 64) : toLower c = d ↔ c = d := by
  by_cases h : isUpper c = true
  · obtain ⟨e, h1, h2⟩ := toLower_upper c h
    constructor
    · intro k; rw [k] at e; omega
    · intro k; rw [k] at h1; omega
  · rw [toLower_of_not_upper c (by simpa using h)]

theorem sign_lower (s : Str) : sign (lower s) = ((sign s).1, lower (sign s).2) := by
  match s with
  | [] => rfl
  | c :: s =>
    by_cases h1 : c = '-'
    · subst h1; rfl
    · by_cases h2 : c = '+'
      · subst h2; rfl
      · have a : toLower c ≠ '-' := mt (toLower_sign c '-' (by decide)).1 h1
        have b : toLower c ≠ '+' := mt (toLower_sign c '+' (by decide)).1 h2
        have e1 : sign (c :: s) = (false, c :: s) := by
          unfold sign; split <;> simp_all
        have e2 : sign (toLower c :: s.map toLower) = (false, toLower c :: s.map toLower) := by
          unfold sign; split <;> simp_all
        rw [e1]
        exact e2

theorem takeWhile_digit_lower (s : Str) :
    (lower s).takeWhile isDigit = s.takeWhile isDigit := by
  induction s with
  | nil => rfl
  | cons c s ih =>
    simp only [lower, List.map_cons, List.takeWhile_cons, toLower_isDigit]
    split_ifs with h
    · rw [toLower_of_not_upper c, ← ih]
      · rfl
      · have : 48 ≤ c.toNat ∧ c.toNat ≤ 57 := by simpa [isDigit] using h
        simp [isUpper]; omega
    · rfl

theorem dropWhile_space_lower (s : Str) :
    (lower s).dropWhile isSpace = lower (s.dropWhile isSpace) := by
  induction s with
  | nil => rfl
  | cons c s ih =>
    simp only [lower, List.map_cons, List.dropWhile_cons, toLower_isSpace] at *
    split_ifs with h
    · exact ih
    · rfl

theorem stoi_lower (s : Str) : stoi (lower s) = stoi s := by
  unfold stoi
  rw [dropWhile_space_lower, sign_lower]
  simp only [takeWhile_digit_lower]

theorem lower_lower (s : Str) : lower (lower s) = lower s := by
  unfold lower
  rw [List.map_map]
  refine List.map_congr_left fun c _ => ?_
  simp only [Function.comp]
  apply toLower_of_not_upper
  by_cases h : isUpper c = true
  · obtain ⟨e, h1, h2⟩ := toLower_upper c h
    simp [isUpper, e]
    omega
  · rw [toLower_of_not_upper c (by simpa using h)]; simpa using h

theorem create_lower (s : Str) : create (lower s) = create s := by
  have hd : ∀ n f, withIters ((lower s).drop n) f = withIters (s.drop n) f := by
    intro n f
    have : (lower s).drop n = lower (s.drop n) := by simp [lower, List.map_drop]
    unfold withIters
    rw [this, stoi_lower]
  unfold create
  simp only [lower_lower, hd]

/-- **C55** (case). The case of the letters of a name does not matter. -/
theorem C55_case (a b : Str) (h : lower a = lower b) : create a = create b := by
  rw [← create_lower a, h, create_lower]

example : lower "Rk4".toList = lower "RK4".toList ∧ create "Rk4".toList = .ok .rk4 := by
  refine ⟨by decide, rfl⟩

/-! ## The documented names -/

/-- The schemes of docs/inputs.rst:559-562 and their documentation; local Adams-Bashforth
apart. -/
inductive Documented : Str → Scheme ℚ → Prop
  | euler : Documented "Euler".toList .euler
  | leuler : Documented "LEuler".toList .leuler
  | heun : Documented "Heun".toList .heun
  | rk2 : Documented "RK2".toList .rk2
  | rk4 : Documented "RK4".toList .rk4
  | ab2 : Documented "AB2".toList (.ab 2)
  | ab3 : Documented "AB3".toList (.ab 3)
  | ab4 : Documented "AB4".toList (.ab 4)
  /-- implicit Euler with `N` iterations -/
  | beuler (ds : Str) : Documented ("BEuler".toList ++ ds) (.impEuler (natOf ds) 1)
  /-- midpoint rule -/
  | midpoint (ds : Str) : Documented ("Midpoint".toList ++ ds) (.impEuler (natOf ds) (1 / 2))
  /-- average constant acceleration (Newmark with 1/2, 1/4) -/
  | aca (ds : Str) : Documented ("ACA".toList ++ ds) (.newmark (natOf ds) (1 / 2) (1 / 4))
  /-- Wilson with 1.37 -/
  | wilson (ds : Str) : Documented ("Wilson".toList ++ ds) (.wilson (natOf ds) (137 / 100))

theorem takeWhile_digits (ds tail : Str) (h : ∀ c ∈ ds, isDigit c = true)
    (ht : ∀ c, tail.head? = some c → isDigit c = false) :
    (ds ++ tail).takeWhile isDigit = ds := by
  induction ds with
  | nil =>
    match tail with
    | [] => rfl
    | c :: t => simp [List.takeWhile_cons, ht c rfl]
  | cons d ds ih =>
    simp [List.takeWhile_cons, h d (by simp), ih fun c hc => h c (by simp [hc])]

theorem digit_range (c : Char) (h : isDigit c = true) : 48 ≤ c.toNat ∧ c.toNat ≤ 57 := by
  simpa [isDigit] using h

/-- Reading a numeral followed by anything but a digit. -/
theorem stoi_numeral (ds tail : Str) (hne : ds ≠ []) (h : ∀ c ∈ ds, isDigit c = true)
    (ht : ∀ c, tail.head? = some c → isDigit c = false) (hv : natOf ds < 2 ^ 31) :
    stoi (ds ++ tail) = .ok (natOf ds) := by
  match ds, hne with
  | d :: ds, _ =>
    obtain ⟨h1, h2⟩ := digit_range d (h d (by simp))
    have hs : isSpace d = false := by
      have key : ∀ x : Char, x.toNat ≤ 32 → d ≠ x := fun x hx k => by rw [k] at h1; omega
      simp [isSpace, key ' ' (by decide), key '\t' (by decide), key '\n' (by decide),
        key '\x0b' (by decide), key '\x0c' (by decide), key '\r' (by decide)]
    have hsg : sign (d :: (ds ++ tail)) = (false, d :: (ds ++ tail)) := by
      unfold sign
      split
      · next k => simp only [List.cons.injEq] at k; rw [k.1] at h1; exact absurd h1 (by decide)
      · next k => simp only [List.cons.injEq] at k; rw [k.1] at h1; exact absurd h1 (by decide)
      · rfl
    unfold stoi
    have e1 : ((d :: ds) ++ tail).dropWhile isSpace = d :: (ds ++ tail) := by
      simp [List.dropWhile_cons, hs]
    rw [e1, hsg]
    have e2 : (d :: (ds ++ tail)).takeWhile isDigit = d :: ds :=
      takeWhile_digits (d :: ds) tail h ht
    simp only [e2]
    rw [if_neg (by simp)]
    simp only [Bool.false_eq_true, if_false]
    rw [if_neg (by push_cast; omega)]

theorem toUnsigned_nat (n : ℕ) (h : n < 2 ^ 31) : toUnsigned (n : ℤ) = n := by
  unfold toUnsigned; omega

theorem lower_append (a b : Str) : lower (a ++ b) = lower a ++ lower b := by simp [lower]

theorem digits_lower (ds : Str) (h : ∀ c ∈ ds, isDigit c = true) : lower ds = ds := by
  unfold lower
  conv_rhs => rw [← List.map_id ds]
  refine List.map_congr_left fun c hc => ?_
  obtain ⟨h1, h2⟩ := digit_range c (h c hc)
  exact toLower_of_not_upper c (by simp [isUpper]; omega)

/-- What is created for a prefix followed by a numeral and anything that does not begin by a
digit. -/
theorem create_prefixed (pre : Str) (ds tail : Str) (f : ℕ → Scheme ℚ)
    (hp : ∀ rest, create (pre ++ rest) = withIters rest f)
    (hne : ds ≠ []) (h : ∀ c ∈ ds, isDigit c = true)
    (ht : ∀ c, tail.head? = some c → isDigit c = false) (hv : natOf ds < 2 ^ 31) :
    create (pre ++ (ds ++ tail)) = .ok (f (natOf ds)) := by
  rw [hp]
  unfold withIters
  rw [stoi_numeral ds tail hne h ht hv]
  simp only [toUnsigned_nat _ hv]

theorem create_beuler (rest : Str) :
    create (['B', 'E', 'u', 'l', 'e', 'r'] ++ rest) = withIters rest (.impEuler · 1) := by
  simp only [create, lower, List.cons_append, List.nil_append, List.map_cons]
  simp [toLower, isUpper, startswith, List.isPrefixOf]

theorem create_midpoint (rest : Str) :
    create (['M', 'i', 'd', 'p', 'o', 'i', 'n', 't'] ++ rest) =
      withIters rest (.impEuler · (1 / 2)) := by
  simp only [create, lower, List.cons_append, List.nil_append, List.map_cons]
  simp [toLower, isUpper, startswith, List.isPrefixOf]

theorem create_aca (rest : Str) :
    create (['A', 'C', 'A'] ++ rest) = withIters rest (.newmark · (1 / 2) (1 / 4)) := by
  simp only [create, lower, List.cons_append, List.nil_append, List.map_cons]
  simp [toLower, isUpper, startswith, List.isPrefixOf]

theorem create_wilson (rest : Str) :
    create (['W', 'i', 'l', 's', 'o', 'n'] ++ rest) = withIters rest (.wilson · (137 / 100)) := by
  simp only [create, lower, List.cons_append, List.nil_append, List.map_cons]
  simp [toLower, isUpper, startswith, List.isPrefixOf]

/-- **C55** (documented names). Every documented name, in any case, creates its scheme, with
every number of iterations that an `int` can hold. -/
theorem C55_documented (doc : Str) (sc : Scheme ℚ) (name : Str) (hd : Documented doc sc)
    (hn : lower name = lower doc)
    (hds : ∀ pre ds, doc = pre ++ ds →
      pre ∈ ["BEuler".toList, "Midpoint".toList, "ACA".toList, "Wilson".toList] →
      ds ≠ [] ∧ (∀ c ∈ ds, isDigit c = true) ∧ natOf ds < 2 ^ 31) :
    create name = .ok sc := by
  rw [C55_case name doc hn]
  cases hd with
  | euler => rfl
  | leuler => rfl
  | heun => rfl
  | rk2 => rfl
  | rk4 => rfl
  | ab2 => rfl
  | ab3 => rfl
  | ab4 => rfl
  | beuler ds =>
    obtain ⟨h1, h2, h3⟩ := hds "BEuler".toList ds rfl (by simp)
    have := create_prefixed _ ds [] _ create_beuler h1 h2 (by simp) h3
    rw [List.append_nil] at this
    exact this
  | midpoint ds =>
    obtain ⟨h1, h2, h3⟩ := hds "Midpoint".toList ds rfl (by simp)
    have := create_prefixed _ ds [] _ create_midpoint h1 h2 (by simp) h3
    rw [List.append_nil] at this
    exact this
  | aca ds =>
    obtain ⟨h1, h2, h3⟩ := hds "ACA".toList ds rfl (by simp)
    have := create_prefixed _ ds [] _ create_aca h1 h2 (by simp) h3
    rw [List.append_nil] at this
    exact this
  | wilson ds =>
    obtain ⟨h1, h2, h3⟩ := hds "Wilson".toList ds rfl (by simp)
    have := create_prefixed _ ds [] _ create_wilson h1 h2 (by simp) h3
    rw [List.append_nil] at this
    exact this

example : create "bEuLer12".toList = .ok (.impEuler 12 1) := rfl

/-- **C11** is false for the local Adams-Bashforth schemes: `LAB2`, `LAB3` and `LAB4` are the
ordinary ones, which compute every derivative at every step. -/
theorem C11_lab_false :
    create "LAB2".toList = create "AB2".toList ∧ create "LAB3".toList = create "AB3".toList ∧
    create "LAB4".toList = create "AB4".toList := ⟨rfl, rfl, rfl⟩

/-- **C55** (unknown names). A name that is none of the fixed ones and begins with none of the
prefixes is rejected. -/
theorem C55_unknown (name : Str)
    (h1 : ∀ n ∈ ["euler", "leuler", "heun", "rk2", "rk4", "ab2", "ab3", "ab4", "lab2", "lab3",
      "lab4"], lower name ≠ n.toList)
    (h2 : ∀ p ∈ ["beuler", "midpoint", "anderson", "aca", "wilson"],
      ¬ p.toList <+: lower name) :
    create name = .invalid := by
  unfold create
  have a := fun n hn => h1 n hn
  simp only [List.mem_cons, List.not_mem_nil, or_false, forall_eq_or_imp, forall_eq] at a
  obtain ⟨a1, a2, a3, a4, a5, a6, a7, a8, a9, a10, a11⟩ := a
  have b := fun n hn => h2 n hn
  simp only [List.mem_cons, List.not_mem_nil, or_false, forall_eq_or_imp, forall_eq] at b
  obtain ⟨b1, b2, b3, b4, b5⟩ := b
  have e : ∀ p : Str, ¬ p <+: lower name → ¬ (startswith (lower name) p = true) := by
    intro p hp h
    exact hp (List.isPrefixOf_iff_prefix.1 h)
  simp only
  rw [if_neg a1, if_neg a2, if_neg a3, if_neg a4, if_neg a5, if_neg a6, if_neg a7, if_neg a8,
    if_neg a9, if_neg a10, if_neg a11, if_neg (e _ b1), if_neg (e _ b2), if_neg (e _ b3),
    if_neg (e _ b4), if_neg (e _ b5)]

example : create "RK3".toList = .invalid := rfl
example : create "wilson".toList = .invalid := rfl

/-- **C55** (rejection). A rejected name is reported and changes nothing. -/
theorem C55_rejected {S : Type} (a : ℕ) (initial : S → Option S) (name : Str) (s : Sys S)
    (h : create name = .invalid) : setTimeScheme a initial name s = .error s := by
  unfold setTimeScheme; rw [h]

/-- "Unknown names are rejected" is false: a documented name with iterations may be followed
by anything that does not begin with a digit. -/
theorem C55_garbage_false (ds tail : Str) (hne : ds ≠ []) (h : ∀ c ∈ ds, isDigit c = true)
    (ht : ∀ c, tail.head? = some c → isDigit c = false) (hv : natOf ds < 2 ^ 31) :
    create (['W', 'i', 'l', 's', 'o', 'n'] ++ (ds ++ tail)) =
      .ok (.wilson (natOf ds) (137 / 100)) :=
  create_prefixed _ ds tail _ create_wilson hne h ht hv

example : create "Wilson20-and-some".toList = .ok (.wilson 20 (137 / 100)) := rfl

/-- Negative numbers of iterations are accepted, as huge ones. -/
theorem C55_negative_false : create "BEuler-1".toList = .ok (.impEuler 4294967295 1) := rfl

/-- A number of iterations beyond the range of `int` is not reported: an exception leaves
the library. -/
theorem C55_escapes_false {S : Type} (a : ℕ) (initial : S → Option S) (s : Sys S) (ds : Str)
    (hne : ds ≠ []) (h : ∀ c ∈ ds, isDigit c = true) (hv : 2 ^ 31 ≤ natOf ds) :
    setTimeScheme a initial (['A', 'C', 'A'] ++ ds) s = .escapes s := by
  have : create (['A', 'C', 'A'] ++ ds) = .outOfRange := by
    rw [create_aca]
    unfold withIters
    have e : stoi ds = .outOfRange := by
      match ds, hne with
      | d :: ds, _ =>
        obtain ⟨h1, h2⟩ := digit_range d (h d (by simp))
        have hs : isSpace d = false := by
          have key : ∀ x : Char, x.toNat ≤ 32 → d ≠ x := fun x hx k => by rw [k] at h1; omega
          simp [isSpace, key ' ' (by decide), key '\t' (by decide), key '\n' (by decide),
            key '\x0b' (by decide), key '\x0c' (by decide), key '\r' (by decide)]
        have hsg : sign (d :: ds) = (false, d :: ds) := by
          unfold sign
          split
          · next k =>
            simp only [List.cons.injEq] at k; rw [k.1] at h1; exact absurd h1 (by decide)
          · next k =>
            simp only [List.cons.injEq] at k; rw [k.1] at h1; exact absurd h1 (by decide)
          · rfl
        unfold stoi
        have e1 : (d :: ds).dropWhile isSpace = d :: ds := by simp [List.dropWhile_cons, hs]
        rw [e1, hsg]
        have e2 : (d :: ds).takeWhile isDigit = d :: ds := by
          have := takeWhile_digits (d :: ds) [] h (by simp)
          rwa [List.append_nil] at this
        simp only [e2]
        rw [if_neg (by simp)]
        simp only [Bool.false_eq_true, if_false]
        rw [if_pos (by right; exact_mod_cast hv)]
    rw [e]
  unfold setTimeScheme
  rw [this]

example : create "ACA99999999999".toList = .outOfRange := rfl

/-! ## Switching -/

/-- **C55** (state). A successful switch keeps the state of the simulation: the next step
starts from it with the new scheme. -/
theorem C55_state_partial {S : Type} (a : ℕ) (initial : S → Option S) (name : Str)
    (s s' : Sys S) (h : setTimeScheme a initial name s = .ok s') :
    s'.state = s.state ∧ create name = .ok s'.scheme ∧
    ∀ (adv : Scheme ℚ → ℚ → ℚ → S → S) (dt : ℚ), s.flow = false →
      ∃ s'', step adv dt s' = some s'' ∧ s''.state = adv s'.scheme 0 dt s.state := by
  unfold setTimeScheme at h
  split at h
  · exact absurd h (by simp)
  · exact absurd h (by simp)
  · next sc hsc =>
    dsimp only at h
    split at h
    · exact absurd h (by simp)
    · next i hi =>
      simp only [Outcome.ok.injEq] at h
      subst h
      refine ⟨rfl, hsc, fun adv dt hf => ?_⟩
      unfold step
      rw [if_neg (by simp [hf])]
      exact ⟨_, rfl, rfl⟩

/-- "Keeps the simulation time" is false: the clock restarts from zero whatever it was. -/
theorem C55_time_false {S : Type} (a : ℕ) (initial : S → Option S) (name : Str)
    (s s' : Sys S) (h : setTimeScheme a initial name s = .ok s') : s'.time = 0 := by
  unfold setTimeScheme at h
  split at h
  · exact absurd h (by simp)
  · exact absurd h (by simp)
  · dsimp only at h
    split at h
    · exact absurd h (by simp)
    · simp only [Outcome.ok.injEq] at h
      subst h
      rfl

/-- Until the next step the queries give the initial states of the objects computed anew, not
the state of the simulation. -/
theorem C55_queries_false {S : Type} (a : ℕ) (initial : S → Option S) (name : Str)
    (s s' : Sys S) (h : setTimeScheme a initial name s = .ok s') :
    initial s.shown = some s'.shown := by
  unfold setTimeScheme at h
  split at h
  · exact absurd h (by simp)
  · exact absurd h (by simp)
  · dsimp only at h
    split at h
    · exact absurd h (by simp)
    · next i hi =>
      simp only [Outcome.ok.injEq] at h
      subst h
      exact hi

/-- With waves or currents the first step after a switch is undefined behaviour: they hold
the address of the deleted integrator. -/
theorem C55_flow_false {S : Type} (a : ℕ) (initial : S → Option S) (name : Str)
    (s s' : Sys S) (h : setTimeScheme a initial name s = .ok s') (hf : s.flow = true)
    (ha : a ≠ s.wavesClock) (adv : Scheme ℚ → ℚ → ℚ → S → S) (dt : ℚ) :
    step adv dt s' = none := by
  unfold setTimeScheme at h
  split at h
  · exact absurd h (by simp)
  · exact absurd h (by simp)
  · dsimp only at h
    split at h
    · exact absurd h (by simp)
    · next i hi =>
      simp only [Outcome.ok.injEq] at h
      subst h
      unfold step
      rw [if_pos]
      refine ⟨hf, ?_⟩
      unfold flowTime
      rw [if_neg (Ne.symm ha)]

/-- A switch while the objects cannot be initialised (a free point has sunk into the seabed)
lets an exception out, after the old integrator is gone. -/
theorem C55_init_false {S : Type} (a : ℕ) (initial : S → Option S) (name : Str) (s : Sys S)
    (sc : Scheme ℚ) (hc : create name = .ok sc) (hi : initial s.shown = none) :
    ∃ s', setTimeScheme a initial name s = .escapes s' ∧ s'.scheme = sc ∧ s'.addr = a := by
  unfold setTimeScheme
  rw [hc]
  simp only [hi]
  exact ⟨_, rfl, rfl, rfl⟩

/-- A system of one coordinate simulated for 5 s, and its switch. -/
example : ∃ s', setTimeScheme 1 (fun _ => some 0) "Euler".toList
    ⟨.rk2, 0, 5, (7 : ℚ), 7, 0, false⟩ = .ok s' ∧ s'.state = 7 ∧ s'.time = 0 ∧ s'.shown = 0 :=
  ⟨_, rfl, rfl, rfl, rfl⟩

end MD.Scheme
