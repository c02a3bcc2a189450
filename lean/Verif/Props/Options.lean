import Verif.Spec.Options
import Mathlib.Data.List.Basic
import Mathlib.Data.List.Perm.Basic
import Mathlib.Algebra.Order.Group.Defs
import Mathlib.Data.Rat.Defs
import Mathlib.Algebra.Order.Field.Rat
import Mathlib.Tactic.NormNum

/-!
# C79, C80: the options of the input file and the names of the files written
-/

set_option linter.unusedSimpArgs false
set_option linter.unusedVariables false
set_option linter.unusedTactic false
set_option linter.unnecessarySeqFocus false
set_option linter.unreachableTactic false

namespace MD.Options

open MD.Text MD.Scheme MD.Time MD.Reader

variable {D : Type}

theorem atof_of {v : Str} {a : Val} (h : strtold v = some a) : atof v = a := by
  simp [atof, h]

theorem truth_eq (a : Val) : truth a = decide (a ≠ .fin 0) := by
  cases a <;> simp [truth]

/-- One line about an option with a meaning sets this option and nothing else. -/
theorem readOption_sets (load : Str → Option D) (s : Settings D) (x : Opt) (hx : x ≠ .writeLog)
    (v n : Str) (hn : n ∈ x.names) (m : OptVal D) (hm : meaning load x v = some m) :
    ∃ s', readOption load s v n = .ok s' ∧ s'.view x = m ∧
      ∀ y, y ≠ x → s'.view y = s.view y := by
  cases x
  case writeLog => exact absurd rfl hx
  all_goals simp only [Opt.names, Opt.docName, Opt.others, List.map_cons, List.map_nil,
    List.mem_cons, List.not_mem_nil, or_false] at hn
  all_goals simp only [meaning, Opt.kind] at hm
  case tScheme =>
    subst hn
    cases hc : create v with
    | ok c =>
      rw [hc] at hm
      refine ⟨_, by simp [readOption, hc]; rfl, ?_, ?_⟩
      · simpa [Settings.view, usedScheme] using hm
      · intro y hy; cases y <;> first | rfl | exact absurd rfl hy
    | invalid => rw [hc] at hm; exact absurd hm (by simp)
    | outOfRange => rw [hc] at hm; exact absurd hm (by simp)
  case seafloorFile =>
    subst hn
    cases hc : load v with
    | some b =>
      rw [hc] at hm
      refine ⟨_, by simp [readOption, hc]; rfl, ?_, ?_⟩
      · simpa [Settings.view] using hm
      · intro y hy; cases y <;> first | rfl | exact absurd rfl hy
    | none => rw [hc] at hm; exact absurd hm (by simp)
  case unify =>
    subst hn
    by_cases h0 : v = ['0']
    · subst h0
      refine ⟨_, by simp [readOption]; rfl, ?_, ?_⟩
      · simpa [Settings.view] using hm
      · intro y hy; cases y <;> first | rfl | exact absurd rfl hy
    · by_cases h1 : v = ['1']
      · subst h1
        refine ⟨_, by simp [readOption]; rfl, ?_, ?_⟩
        · simpa [Settings.view] using hm
        · intro y hy; cases y <;> first | rfl | exact absurd rfl hy
      · rw [if_neg h0, if_neg h1] at hm; exact absurd hm (by simp)
  case waveKin | currents | writeUnits =>
    subst hn
    cases hc : stoi v with
    | ok i =>
      rw [hc] at hm
      refine ⟨_, by simp [readOption, stoiE, atoi, hc]; rfl, ?_, ?_⟩
      · simpa [Settings.view, atoi, hc] using hm
      · intro y hy; cases y <;> first | rfl | exact absurd rfl hy
    | invalidArgument => rw [hc] at hm; exact absurd hm (by simp)
    | outOfRange => rw [hc] at hm; exact absurd hm (by simp)
  all_goals
    cases hc : strtold v with
    | none => rw [hc] at hm; exact absurd hm (by simp)
    | some a =>
      rw [hc] at hm
      first
      | (rcases hn with hn | hn | hn <;> subst hn <;>
          refine ⟨_, by simp [readOption, stof, atof, hc]; rfl, ?_, ?_⟩ <;>
          first
          | (intro y hy; cases y <;> first | rfl | exact absurd rfl hy)
          | (simpa [Settings.view, truth_eq, atof, hc] using hm))
      | (rcases hn with hn | hn <;> subst hn <;>
          refine ⟨_, by simp [readOption, stof, atof, hc]; rfl, ?_, ?_⟩ <;>
          first
          | (intro y hy; cases y <;> first | rfl | exact absurd rfl hy)
          | (simpa [Settings.view, truth_eq, atof, hc] using hm))
      | (subst hn
         refine ⟨_, by simp [readOption, stof, atof, hc]; rfl, ?_, ?_⟩ <;>
          first
          | (intro y hy; cases y <;> first | rfl | exact absurd rfl hy)
          | (simpa [Settings.view, truth_eq, atof, hc] using hm))

/-- A line about none of the options changes nothing. -/
theorem readOption_unknown (load : Str → Option D) (s : Settings D) (v n : Str)
    (hn : ∀ x : Opt, n ∉ x.names) : readOption load s v n = .ok s := by
  have h : ∀ (x : Opt) (m : String), m ∈ x.docName :: x.others → n ≠ m.toList := by
    intro x m hm he
    exact hn x (by subst he; exact List.mem_map_of_mem hm)
  have h1 := h .dtM; have h2 := h .cfl; have h3 := h .writeLog; have h4 := h .tScheme
  have h5 := h .g; have h6 := h .rho; have h7 := h .depth; have h8 := h .kBot
  have h9 := h .cBot; have h10 := h .dtIC; have h11 := h .tmaxIC; have h12 := h .cdScaleIC
  have h13 := h .threshIC; have h14 := h .waveKin; have h15 := h .dtWave
  have h16 := h .currents; have h17 := h .unify; have h18 := h .writeUnits
  have h19 := h .fric; have h20 := h .fricDamp; have h21 := h .statDyn; have h22 := h .dtOut
  have h23 := h .seafloorFile; have h24 := h .icGenDynamic
  clear h hn
  simp only [Opt.docName, Opt.others, List.mem_cons, List.not_mem_nil, or_false,
    forall_eq_or_imp, forall_eq] at *
  unfold readOption
  simp only [*, ne_eq, not_false_eq_true, if_false, or_self, reduceIte, and_self]

/-- All options. -/
def allOpts : List Opt :=
  [.writeLog, .dtM, .cfl, .tScheme, .g, .rho, .depth, .kBot, .cBot, .dtIC, .tmaxIC, .cdScaleIC,
   .threshIC, .waveKin, .dtWave, .currents, .unify, .writeUnits, .fric, .fricDamp, .statDyn,
   .dtOut, .seafloorFile, .icGenDynamic]

/-- Different options have different names. -/
theorem names_disjoint (x y : Opt) (n : Str) (hx : n ∈ x.names) (hy : n ∈ y.names) : x = y := by
  have key : ∀ x : Opt, ∀ n ∈ x.names, allOpts.find? (fun z => n ∈ z.names) = some x := by
    intro x
    cases x <;> decide +kernel
  exact Option.some.inj ((key x n hx).symm.trans (key y n hy))

/-- What a list of lines does, one after another. -/
theorem scan_options (load : Str → Option D) (opts : List Str) (stop : Str) (post : List Str)
    (hopts : ∀ l ∈ opts, contains l "---".toList = false)
    (hstop : contains stop "---".toList = true)
    (hvalid : ∀ l ∈ opts, ∀ x : Opt, x ≠ .writeLog → about x l → (given load x l).isSome)
    (s : Settings D) :
    ∃ s', scan (optionsSecond load) (opts ++ stop :: post) s = .ok s' ∧
      s'.view .writeLog = s.view .writeLog ∧
      ∀ x : Opt, x ≠ .writeLog →
        s'.view x = ((opts.filterMap (given load x)).getLast?).getD (s.view x) := by
  induction opts generalizing s with
  | nil =>
    refine ⟨s, ?_, rfl, fun x _ => rfl⟩
    simp only [List.nil_append, scan]
    rw [if_pos]; exact hstop
  | cons l ls ih =>
    have hl := hopts l (by simp)
    have ih := ih (fun l' h' => hopts l' (by simp [h'])) (fun l' h' => hvalid l' (by simp [h']))
    have hv := hvalid l (by simp)
    have step : ∃ s1, optionsSecond load s l = .cont s1 ∧
        s1.view .writeLog = s.view .writeLog ∧
        ∀ x : Opt, x ≠ .writeLog → s1.view x = (given load x l).getD (s.view x) := by
      unfold optionsSecond
      cases hsp : split ' ' l with
      | nil => exact ⟨s, rfl, rfl, fun x _ => by simp [given, hsp]⟩
      | cons v t =>
        cases t with
        | nil => exact ⟨s, rfl, rfl, fun x _ => by simp [given, hsp]⟩
        | cons n rest =>
          by_cases hw : n = "writeLog".toList
          · refine ⟨s, ?_, rfl, fun x hx => ?_⟩
            · dsimp only; rw [if_neg (not_not.2 hw)]
            · have : n ∉ x.names := fun h =>
                hx (names_disjoint x .writeLog n h (by subst hw; decide))
              simp [given, hsp, this]
          · by_cases hk : ∃ x : Opt, n ∈ x.names
            · obtain ⟨x, hx⟩ := hk
              have hxw : x ≠ .writeLog := by
                rintro rfl
                apply hw
                simpa [Opt.names, Opt.docName, Opt.others] using hx
              have hs := hv x hxw (by simp [about, hsp, hx])
              obtain ⟨m, hm⟩ := Option.isSome_iff_exists.1 hs
              have hm' : meaning load x v = some m := by simpa [given, hsp, hx] using hm
              obtain ⟨s1, h1, h2, h3⟩ := readOption_sets load s x hxw v n hx m hm'
              refine ⟨s1, ?_, h3 _ (Ne.symm hxw), fun y hy => ?_⟩
              · dsimp only; rw [if_pos hw, h1]
              · by_cases hyx : y = x
                · subst hyx; rw [hm, h2]; rfl
                · rw [h3 y hyx]
                  have : n ∉ y.names := fun h => hyx (names_disjoint y x n h hx)
                  simp [given, hsp, this]
            · have hk' : ∀ x : Opt, n ∉ x.names := fun x hx => hk ⟨x, hx⟩
              refine ⟨s, ?_, rfl, fun y hy => by simp [given, hsp, hk' y]⟩
              dsimp only
              rw [if_pos hw, readOption_unknown load s v n hk']
    obtain ⟨s1, h1, hw1, h2⟩ := step
    obtain ⟨s', h3, hw3, h4⟩ := ih s1
    refine ⟨s', ?_, hw3.trans hw1, fun x hx => ?_⟩
    · have hl' : ¬ contains l dashes = true := by
        have h0 : contains l dashes = false := hl
        rw [h0]; simp
      simp only [List.cons_append, scan]
      rw [if_neg hl', h1]
      exact h3
    · rw [h4 x hx, h2 x hx]
      cases hg : given load x l with
      | none => simp [List.filterMap_cons, hg]
      | some m =>
        simp only [List.filterMap_cons, hg, Option.getD_some]
        rw [List.getLast?_cons]
        cases (List.filterMap (given load x) ls).getLast? <;> rfl

/-- The first pass: the first line with `writeLog`. -/
theorem scan_first (load : Str → Option D) (opts : List Str) (stop : Str) (post : List Str)
    (hopts : ∀ l ∈ opts, contains l "---".toList = false)
    (hstop : contains stop "---".toList = true)
    (hvalid : ∀ l ∈ opts, about .writeLog l → (given load .writeLog l).isSome)
    (s : Settings D) :
    ∃ s', scan (optionsFirst setupLog) (opts ++ stop :: post) s = .ok s' ∧
      s'.view .writeLog =
        ((opts.filterMap (given load .writeLog)).head?).getD (s.view .writeLog) ∧
      ∀ x : Opt, x ≠ .writeLog → s'.view x = s.view x := by
  induction opts with
  | nil =>
    refine ⟨s, ?_, rfl, fun x _ => rfl⟩
    simp only [List.nil_append, scan]
    rw [if_pos]; exact hstop
  | cons l ls ih =>
    have ih := ih (fun l' h' => hopts l' (by simp [h'])) (fun l' h' => hvalid l' (by simp [h']))
    have hl' : ¬ contains l dashes = true := by
      have h0 : contains l dashes = false := hopts l (by simp)
      rw [h0]; simp
    have hv := hvalid l (by simp)
    have skip : optionsFirst setupLog s l = .cont s → given load .writeLog l = none →
        ∃ s', scan (optionsFirst setupLog) ((l :: ls) ++ stop :: post) s = .ok s' ∧
          s'.view .writeLog =
            (((l :: ls).filterMap (given load .writeLog)).head?).getD (s.view .writeLog) ∧
          ∀ x : Opt, x ≠ .writeLog → s'.view x = s.view x := by
      intro h1 h2
      simp only [List.cons_append, scan]
      rw [if_neg hl', h1, List.filterMap_cons, h2]
      exact ih
    cases hsp : split ' ' l with
    | nil => exact skip (by simp [optionsFirst, hsp]) (by simp [given, hsp])
    | cons v t =>
      cases t with
      | nil => exact skip (by simp [optionsFirst, hsp]) (by simp [given, hsp])
      | cons n rest =>
        by_cases hw : n = "writeLog".toList
        · have hmem : n ∈ Opt.writeLog.names := by subst hw; decide
          have hs := hv (by simp [about, hsp, hmem])
          obtain ⟨m, hm⟩ := Option.isSome_iff_exists.1 hs
          have hm' : meaning load .writeLog v = some m := by
            simpa [given, hsp, hmem] using hm
          simp only [meaning, Opt.kind] at hm'
          have h1 : optionsFirst setupLog s l = .brk { s with writeLog := atoi v } := by
            simp [optionsFirst, hsp, hw, setupLog]
          simp only [List.cons_append, scan]
          rw [if_neg hl', h1, List.filterMap_cons, hm]
          refine ⟨_, rfl, ?_, ?_⟩
          · cases hc : stoi v with
            | ok i =>
              rw [hc] at hm'
              simp only [Option.some.injEq] at hm'
              simp [Settings.view, atoi, hc, hm']
            | invalidArgument => rw [hc] at hm'; exact absurd hm' (by simp)
            | outOfRange => rw [hc] at hm'; exact absurd hm' (by simp)
          · intro x hx; cases x <;> first | rfl | exact absurd rfl hx
        · have : n ∉ Opt.writeLog.names := by
            intro h; apply hw
            simpa [Opt.names, Opt.docName, Opt.others] using h
          have hw' : ¬ n = ['w', 'r', 'i', 't', 'e', 'L', 'o', 'g'] := hw
          exact skip (by simp [optionsFirst, hsp, hw']) (by simp [given, hsp, this])

/-- The section found in a file. -/
theorem readSection_options {σ : Type} (h : σ → Str → Next σ) (pre : List Str) (header : Str)
    (rest : List Str) (hpre : ∀ l ∈ pre, isHeader l = false) (hh : isHeader header = true)
    (s : σ) :
    readSection (pre ++ header :: rest) ⟨["OPTIONS".toList], h⟩ s = scan h rest s := by
  have hf : ∀ l : Str, (contains l dashes && has (upper l) ["OPTIONS".toList]) = isHeader l := by
    intro l; simp [has, isHeader, dashes]
  have : findStart (pre ++ header :: rest) ["OPTIONS".toList] = some (pre.length + 1) := by
    unfold findStart
    have hi : (pre ++ header :: rest).findIdx?
        (fun l => contains l dashes && has (upper l) ["OPTIONS".toList]) = some pre.length := by
      simp only [hf]
      induction pre with
      | nil => simp [List.findIdx?_cons, hh]
      | cons a t ih =>
        have ha := hpre a (by simp)
        have := ih (fun l hl => hpre l (by simp [hl]))
        simp [List.findIdx?_cons, ha, this]
    rw [hi]
    simp [skip]
  unfold readSection
  rw [this]
  simp only
  congr 1
  rw [show pre ++ header :: rest = (pre ++ [header]) ++ rest by simp]
  exact List.drop_left' (by simp)

/-! ## C79: the options -/

/-- **C79** (reading): in every file with a section of options, all of whose values can be
read, reading succeeds; every option has the value of its last line, or else its default;
the level of the log is that of its first line; lines with other names change nothing. -/
theorem C79_options (load : Str → Option D) (pre : List Str) (header : Str) (opts : List Str)
    (stop : Str) (post : List Str)
    (hpre : ∀ l ∈ pre, isHeader l = false) (hh : isHeader header = true)
    (hopts : ∀ l ∈ opts, contains l "---".toList = false)
    (hstop : contains stop "---".toList = true)
    (hvalid : ∀ l ∈ opts, ∀ x : Opt, about x l → (given load x l).isSome) :
    ∃ s : Settings D, readOptions load (pre ++ header :: (opts ++ stop :: post)) = .ok s ∧
      (∀ x : Opt, x ≠ .writeLog → s.view x =
        ((opts.filterMap (given load x)).getLast?).getD ((defaults : Settings D).view x)) ∧
      s.view .writeLog = ((opts.filterMap (given load .writeLog)).head?).getD (.int 0) := by
  obtain ⟨s1, h1, hw1, hr1⟩ := scan_first load opts stop post hopts hstop
    (fun l hl => hvalid l hl .writeLog) (defaults : Settings D)
  obtain ⟨s2, h2, hw2, hr2⟩ := scan_options load opts stop post hopts hstop
    (fun l hl x _ => hvalid l hl x) s1
  refine ⟨s2, ?_, ?_, ?_⟩
  · unfold readOptions
    simp only [readSections]
    rw [readSection_options _ pre header _ hpre hh, h1]
    simp only
    rw [readSection_options _ pre header _ hpre hh, h2]
  · intro x hx
    rw [hr2 x hx, hr1 x hx]
  · rw [hw2, hw1]; rfl

theorem filterMap_length_le (load : Str → Option D) (x : Opt) (opts : List Str) :
    (opts.filterMap (given load x)).length ≤ (opts.filter (about x)).length := by
  induction opts with
  | nil => simp
  | cons l ls ih =>
    cases hg : given load x l with
    | none =>
      rw [List.filterMap_cons, hg]
      refine ih.trans ?_
      rw [List.filter_cons]
      split
      · simp
      · exact le_rfl
    | some m =>
      have : about x l = true := by
        unfold given at hg
        unfold about
        cases hsp : split ' ' l with
        | nil => rw [hsp] at hg; exact absurd hg (by simp)
        | cons v t =>
          cases t with
          | nil => rw [hsp] at hg; exact absurd hg (by simp)
          | cons n r =>
            rw [hsp] at hg
            by_cases hn : n ∈ x.names
            · simpa using hn
            · simp [hn] at hg
      rw [List.filterMap_cons, hg, List.filter_cons, if_pos this]
      simpa using ih

/-- **C79** (order): when no option is given twice, the order of the lines of the section
does not matter. -/
theorem C79_order (load : Str → Option D) (pre : List Str) (header : Str)
    (opts opts' : List Str) (stop : Str) (post : List Str)
    (hpre : ∀ l ∈ pre, isHeader l = false) (hh : isHeader header = true)
    (hopts : ∀ l ∈ opts, contains l "---".toList = false)
    (hstop : contains stop "---".toList = true)
    (hvalid : ∀ l ∈ opts, ∀ x : Opt, about x l → (given load x l).isSome)
    (honce : ∀ x : Opt, (opts.filter (about x)).length ≤ 1) (hperm : opts.Perm opts') :
    ∃ s s' : Settings D, readOptions load (pre ++ header :: (opts ++ stop :: post)) = .ok s ∧
      readOptions load (pre ++ header :: (opts' ++ stop :: post)) = .ok s' ∧
      ∀ x : Opt, s.view x = s'.view x := by
  obtain ⟨s, h1, h2, h3⟩ := C79_options load pre header opts stop post hpre hh hopts hstop hvalid
  obtain ⟨s', h1', h2', h3'⟩ := C79_options load pre header opts' stop post hpre hh
    (fun l hl => hopts l (hperm.mem_iff.2 hl)) hstop (fun l hl => hvalid l (hperm.mem_iff.2 hl))
  refine ⟨s, s', h1, h1', fun x => ?_⟩
  have key : opts.filterMap (given load x) = opts'.filterMap (given load x) := by
    have hp := hperm.filterMap (given load x)
    have hle := (filterMap_length_le load x opts).trans (honce x)
    generalize opts.filterMap (given load x) = A at *
    generalize opts'.filterMap (given load x) = B at *
    have hl := hp.length_eq
    match A, B, hle with
    | [], B, _ => exact (List.nil_perm.1 hp).symm
    | [a], B, _ => exact List.singleton_perm.1 hp
    | _ :: _ :: _, _, hle => simp at hle
  by_cases hx : x = .writeLog
  · subst hx; rw [h3, h3', key]
  · rw [h2 x hx, h2' x hx, key]

/-- **C79** (documented names): a file with a line "value name" with the documented name
of an option, given once, sets this option to this value. -/
theorem C79_documented (load : Str → Option D) (pre : List Str) (header : Str)
    (before after : List Str) (l stop : Str) (post : List Str) (x : Opt) (v : Str)
    (rest : List Str) (m : OptVal D)
    (hpre : ∀ l ∈ pre, isHeader l = false) (hh : isHeader header = true)
    (hopts : ∀ l' ∈ before ++ l :: after, contains l' "---".toList = false)
    (hstop : contains stop "---".toList = true)
    (hvalid : ∀ l' ∈ before ++ l :: after, ∀ x : Opt, about x l' → (given load x l').isSome)
    (hl : split ' ' l = v :: x.docName.toList :: rest) (hm : meaning load x v = some m)
    (honce : ∀ l' ∈ before ++ after, about x l' = false) :
    ∃ s : Settings D, readOptions load
        (pre ++ header :: ((before ++ l :: after) ++ stop :: post)) = .ok s ∧ s.view x = m := by
  obtain ⟨s, h1, h2, h3⟩ := C79_options load pre header _ stop post hpre hh hopts hstop hvalid
  have hg : given load x l = some m := by
    have : x.docName.toList ∈ x.names := by simp [Opt.names]
    simp [given, hl, this, hm]
  have hz : ∀ ls : List Str, (∀ l' ∈ ls, about x l' = false) →
      ls.filterMap (given load x) = [] := by
    intro ls h
    have h0 := filterMap_length_le load x ls
    have : ls.filter (about x) = [] := by
      rw [List.filter_eq_nil_iff]; intro a ha; rw [h a ha]; simp
    rw [this] at h0
    exact List.length_eq_zero_iff.1 (by simpa using h0)
  have hb := hz before fun l' h => honce l' (by simp [h])
  have ha := hz after fun l' h => honce l' (by simp [h])
  refine ⟨s, h1, ?_⟩
  by_cases hx : x = .writeLog
  · subst hx; rw [h3]; simp [List.filterMap_append, List.filterMap_cons, hg, hb, ha]
  · rw [h2 x hx]; simp [List.filterMap_append, List.filterMap_cons, hg, hb, ha]

/-- **C79** (defaults): an option not given has its documented default, but for the
gravity and the time step. -/
theorem C79_default_partial (load : Str → Option D) (pre : List Str) (header : Str)
    (opts : List Str) (stop : Str) (post : List Str) (x : Opt)
    (hpre : ∀ l ∈ pre, isHeader l = false) (hh : isHeader header = true)
    (hopts : ∀ l ∈ opts, contains l "---".toList = false)
    (hstop : contains stop "---".toList = true)
    (hvalid : ∀ l ∈ opts, ∀ x : Opt, about x l → (given load x l).isSome)
    (hno : ∀ l ∈ opts, about x l = false) (hg : x ≠ .g) (hd : x ≠ .dtM) :
    ∃ s : Settings D, readOptions load (pre ++ header :: (opts ++ stop :: post)) = .ok s ∧
      s.view x = docDefault x := by
  obtain ⟨s, h1, h2, h3⟩ := C79_options load pre header _ stop post hpre hh hopts hstop hvalid
  have h0 := filterMap_length_le load x opts
  have : opts.filter (about x) = [] := by
    rw [List.filter_eq_nil_iff]; intro a ha; rw [hno a ha]; simp
  rw [this] at h0
  have hz : opts.filterMap (given load x) = [] := List.length_eq_zero_iff.1 (by simpa using h0)
  refine ⟨s, h1, ?_⟩
  by_cases hx : x = .writeLog
  · subst hx; rw [h3, hz]; rfl
  · rw [h2 x hx, hz]
    cases x <;>
      first
      | exact absurd rfl hg
      | exact absurd rfl hd
      | rfl
      | (simp only [List.getLast?_nil, Option.getD_none, Settings.view, defaults, docDefault,
          OptVal.num.injEq, Val.fin.injEq]; norm_num)

/-- **C79** fails for the gravity: its default is 9.80665 and not the documented 9.81 (also
the default of the time step is the greatest double, the documented one is the greatest
float). -/
theorem C79_default_false : (defaults : Settings D).g = .fin (9.80665 : ℚ) ∧
    (defaults : Settings D).view .g ≠ docDefault .g ∧
    (defaults : Settings D).view .dtM ≠ docDefault .dtM ∧
    ∃ d x : ℚ, (defaults : Settings D).dtM = .fin d ∧
      (docDefault .dtM : OptVal D) = .num (.fin x) ∧ x < d ∧ d = 2 ^ 1024 - 2 ^ 971 := by
  refine ⟨?_, ?_, ?_, ?_⟩
  · simp only [defaults, Val.fin.injEq]; norm_num
  · simp only [Settings.view, defaults, docDefault, ne_eq, OptVal.num.injEq, Val.fin.injEq]
    norm_num
  · simp only [Settings.view, defaults, docDefault, ne_eq, OptVal.num.injEq, Val.fin.injEq,
      maxReal]
    decide +kernel
  · exact ⟨_, _, rfl, rfl, by decide +kernel, by decide +kernel⟩

/-- **C79** (failure): reading fails because of a line exactly if the line is for one of the
waves, the currents, the time step of the waves, the bathymetry or the time scheme, with a
value that has no meaning; other values without meaning are read without failing. -/
theorem C79_failure (load : Str → Option D) (s : Settings D) (v n : Str) :
    (∃ e, readOption load s v n = .error e) ↔
      ((n = "WaveKin".toList ∨ n = "Currents".toList) ∧ ∀ i, stoi v ≠ .ok i) ∨
      (n = "dtWave".toList ∧ strtold v = none) ∨
      (n = "SeafloorFile".toList ∧ load v = none) ∨
      (n = "tScheme".toList ∧ create v = .outOfRange) := by
  by_cases hk : ∃ x : Opt, n ∈ x.names
  · obtain ⟨x, hx⟩ := hk
    cases x
    case tScheme =>
      simp only [Opt.names, Opt.docName, Opt.others, List.map_cons, List.map_nil,
        List.mem_cons, List.not_mem_nil, or_false] at hx
      subst hx
      cases hc : create v <;> simp [readOption, hc]
    case seafloorFile =>
      simp only [Opt.names, Opt.docName, Opt.others, List.map_cons, List.map_nil,
        List.mem_cons, List.not_mem_nil, or_false] at hx
      subst hx
      cases hc : load v <;> simp [readOption, hc]
    case dtWave =>
      simp only [Opt.names, Opt.docName, Opt.others, List.map_cons, List.map_nil,
        List.mem_cons, List.not_mem_nil, or_false] at hx
      subst hx
      cases hc : strtold v <;> simp [readOption, stof, hc]
    case waveKin | currents =>
      simp only [Opt.names, Opt.docName, Opt.others, List.map_cons, List.map_nil,
        List.mem_cons, List.not_mem_nil, or_false] at hx
      subst hx
      cases hc : stoi v <;> simp [readOption, stoiE, hc]
    case unify =>
      simp only [Opt.names, Opt.docName, Opt.others, List.map_cons, List.map_nil,
        List.mem_cons, List.not_mem_nil, or_false] at hx
      subst hx
      by_cases h1 : v = ['1']
      · simp [readOption, h1]
      · by_cases h0 : v = ['0'] <;> simp [readOption, h1, h0]
    all_goals
      simp only [Opt.names, Opt.docName, Opt.others, List.map_cons, List.map_nil,
        List.mem_cons, List.not_mem_nil, or_false] at hx
      first
      | (rcases hx with hx | hx | hx <;> subst hx <;> simp [readOption])
      | (rcases hx with hx | hx <;> subst hx <;> simp [readOption])
      | (subst hx; simp [readOption])
  · have hk' : ∀ x : Opt, n ∉ x.names := fun x hx => hk ⟨x, hx⟩
    rw [readOption_unknown load s v n hk']
    have a1 := hk' .waveKin; have a2 := hk' .currents; have a3 := hk' .dtWave
    have a4 := hk' .seafloorFile; have a5 := hk' .tScheme
    simp only [Opt.names, Opt.docName, Opt.others, List.map_cons, List.map_nil,
        List.mem_cons, List.not_mem_nil, or_false] at a1 a2 a3 a4 a5
    simp only [reduceCtorEq, exists_false, a1, a2, a3, a4, a5, false_and, or_self]

/-- Values that are not numbers are not rejected: gravity "abc" reads as zero. -/
theorem C79_garbage_false (load : Str → Option D) (s : Settings D) :
    meaning load .g "abc".toList = none ∧
    ∃ s', readOption load s "abc".toList "g".toList = .ok s' ∧ s'.view .g = .num (.fin 0) := by
  have h : strtold "abc".toList = none := by decide +kernel
  refine ⟨by simp only [meaning, Opt.kind, h]; rfl, ⟨_, by simp [readOption]; rfl, ?_⟩⟩
  have : atof "abc".toList = .fin 0 := by simp only [atof, h]; rfl
  exact congrArg OptVal.num this

/-- **C79** (zero): every value that is not a number reads as zero for the gravity, and turns off
the units of the output and the log. -/
theorem C79_zero (load : Str → Option D) (s : Settings D) (v : Str) :
    (strtold v = none →
      ∃ s', readOption load s v "g".toList = .ok s' ∧ s'.view .g = .num (.fin 0)) ∧
    (stoi v = .invalidArgument →
      (∃ s', readOption load s v "WriteUnits".toList = .ok s' ∧ s'.writeUnits = 0) ∧
      atoi v = 0) := by
  refine ⟨fun h => ⟨_, by simp [readOption]; rfl, ?_⟩, fun h => ?_⟩
  · have : atof v = .fin 0 := by simp only [atof, h]; rfl
    exact congrArg OptVal.num this
  · have : atoi v = 0 := by simp only [atoi, h]
    exact ⟨⟨_, by simp [readOption]; rfl, this⟩, this⟩

example : strtold "on".toList = none ∧ stoi "on".toList = .invalidArgument := by decide +kernel

section
variable {K : Type} [LinearOrder K] [AddCommGroup K] [IsOrderedAddMonoid K]

/-- **C79** (depth): the water depth used is the greatest of the one given and those of the
points of the list. -/
theorem C79_depth (d : K) (zs : List K) :
    (∀ z ∈ zs, -z ≤ deepened d zs) ∧ d ≤ deepened d zs ∧
      (deepened d zs = d ∨ ∃ z ∈ zs, deepened d zs = -z) := by
  induction zs generalizing d with
  | nil => exact ⟨by simp, le_rfl, Or.inl rfl⟩
  | cons z t ih =>
    obtain ⟨h1, h2, h3⟩ := ih (deepen d z)
    have hd : d ≤ deepen d z ∧ -z ≤ deepen d z ∧ (deepen d z = d ∨ deepen d z = -z) := by
      unfold deepen
      by_cases h : z < -d
      · rw [if_pos h]; exact ⟨(lt_neg_of_lt_neg h).le, le_rfl, Or.inr rfl⟩
      · rw [if_neg h]; exact ⟨le_rfl, neg_le_of_neg_le (not_lt.1 h), Or.inl rfl⟩
    have hs : deepened d (z :: t) = deepened (deepen d z) t := rfl
    rw [hs]
    refine ⟨?_, hd.1.trans h2, ?_⟩
    · intro y hy
      rcases List.mem_cons.1 hy with rfl | hy
      · exact hd.2.1.trans h2
      · exact h1 y hy
    · rcases h3 with h3 | ⟨y, hy, h3⟩
      · rcases hd.2.2 with h | h
        · left; rw [h3, h]
        · right; exact ⟨z, by simp, by rw [h3, h]⟩
      · right; exact ⟨y, by simp [hy], h3⟩

/-- The depth given is the one used if no point is deeper. -/
theorem C79_depth_partial (d : K) (zs : List K) (h : ∀ z ∈ zs, -d ≤ z) : deepened d zs = d := by
  obtain ⟨_, h2, h3⟩ := C79_depth d zs
  rcases h3 with h3 | ⟨z, hz, h3⟩
  · exact h3
  · exact le_antisymm (h3 ▸ neg_le_of_neg_le (h z hz)) h2

end

/-- **C79** fails for the water depth: with a depth of 100 and a point (of any type) at the
height -150 the depth used is 150. -/
theorem C79_depth_false : ∃ (d : ℚ) (zs : List ℚ), deepened d zs ≠ d :=
  ⟨100, [-150], by decide +kernel⟩

/-! ### Concrete cases -/

deriving instance DecidableEq for MD.Time.Scheme
deriving instance DecidableEq for OptVal

/-- A section: two options with other words behind, an unknown one, a line without name. -/
def exFile : List Str :=
  ["--- MoorDyn input file".toList, "nothing".toList,
   "------- OPTIONS ------".toList,
   "0.002 dtM time step".toList,
   " 3.5e5  cb  damping".toList,
   "12 unknown".toList,
   "x".toList,
   "2 writeLog".toList,
   "RK4 tScheme".toList,
   "------- OUTPUTS ------".toList, "a".toList, "----".toList]

/-- The file meets the hypotheses of `C79_options`. -/
example : ∃ s : Settings Unit, readOptions (fun _ => none) exFile = .ok s ∧
    s.view .dtM = .num (.fin 0.002) ∧ s.view .cBot = .num (.fin 350000) ∧
    s.view .tScheme = .scheme .rk4 ∧ s.view .writeLog = .int 2 ∧ s.view .kBot = docDefault .kBot := by
  obtain ⟨s, h1, h2, h3⟩ := C79_options (D := Unit) (fun _ => none)
    ["--- MoorDyn input file".toList, "nothing".toList] "------- OPTIONS ------".toList
    ["0.002 dtM time step".toList, " 3.5e5  cb  damping".toList, "12 unknown".toList,
      "x".toList, "2 writeLog".toList, "RK4 tScheme".toList]
    "------- OUTPUTS ------".toList ["a".toList, "----".toList]
    (by decide +kernel) (by decide +kernel) (by decide +kernel) (by decide +kernel)
    (by intro l hl x
        simp only [List.mem_cons, List.not_mem_nil, or_false] at hl
        rcases hl with rfl | rfl | rfl | rfl | rfl | rfl <;> cases x <;> decide +kernel)
  refine ⟨s, h1, ?_, ?_, ?_, ?_, ?_⟩
  · rw [h2 _ (by simp)]; decide +kernel
  · rw [h2 _ (by simp)]; decide +kernel
  · rw [h2 _ (by simp)]; decide +kernel
  · rw [h3]; decide +kernel
  · rw [h2 _ (by simp)]; decide +kernel

/-! ## C80: the names of the files written -/

/-- A path separator. -/
def isSep (c : Char) : Bool := c = '/' ∨ c = '\\'

theorem findLast_append (p : Char → Bool) (a : Str) (c : Char) (b : Str) (hc : p c = true)
    (hb : ∀ d ∈ b, p d = false) : findLast p (a ++ c :: b) = some a.length := by
  have h : (a ++ c :: b).reverse.findIdx? p = some b.length := by
    rw [List.reverse_append, List.reverse_cons, List.append_assoc]
    have hb' : ∀ d ∈ b.reverse, p d = false := fun d hd => hb d (by simpa using hd)
    have hl : b.reverse.length = b.length := by simp
    rw [← hl]
    generalize b.reverse = r at hb'
    induction r with
    | nil => simp [List.findIdx?_cons, hc]
    | cons x t ih =>
      have hx := hb' x (by simp)
      have := ih (fun d hd => hb' d (by simp [hd]))
      rw [List.cons_append, List.findIdx?_cons, hx, this]
      simp
  unfold findLast
  rw [h]
  simp only [List.length_append, List.length_cons, Option.some.injEq]
  omega

theorem findLast_none (p : Char → Bool) (s : Str) (h : ∀ d ∈ s, p d = false) :
    findLast p s = none := by
  have : s.reverse.findIdx? p = none := by
    rw [List.findIdx?_eq_none_iff]
    intro x hx
    simpa using h x (by simpa using hx)
  unfold findLast
  rw [this]

theorem findLast_lt (p : Char → Bool) (s : Str) (i : ℕ) (h : findLast p s = some i) :
    i < s.length := by
  unfold findLast at h
  cases hf : s.reverse.findIdx? p with
  | none => rw [hf] at h; exact absurd h (by simp)
  | some j =>
    rw [hf] at h
    have hj : j < s.reverse.length := (List.findIdx?_eq_some_iff_findIdx_eq.1 hf).1
    simp only [Option.some.injEq] at h
    simp only [List.length_reverse] at hj
    omega

/-- **C80** (names): the name of the input file is divided into the directory, the name
without the extension and the extension; the first two are kept. -/
theorem C80_split (dir base ext : Str) (hlen : (dir ++ base ++ ext).length < 2 ^ 63)
    (hdir : dir = [] ∨ ∃ d c, dir = d ++ [c] ∧ isSep c = true)
    (hbase : ∀ c ∈ base ++ ext, isSep c = false)
    (hext : (ext = [] ∧ ∀ c ∈ base, c ≠ '.') ∨ ∃ e, ext = '.' :: e ∧ ∀ c ∈ e, c ≠ '.') :
    splitPath (dir ++ base ++ ext) = some (dir, base) := by
  have hslash : (findLast (fun c => c = '/' ∨ c = '\\') (dir ++ base ++ ext)).getD npos + 1 =
      if dir = [] then 2 ^ 64 else dir.length := by
    rcases hdir with rfl | ⟨d, c, rfl, hc⟩
    · rw [if_pos rfl, findLast_none]
      · rfl
      · intro x hx; exact hbase x (by simpa using hx)
    · rw [if_neg (by simp), show d ++ [c] ++ base ++ ext = d ++ c :: (base ++ ext) by simp,
        findLast_append (fun c => decide (c = '/' ∨ c = '\\')) d c (base ++ ext) hc hbase]
      simp
  have hafter : ((findLast (fun c => c = '/' ∨ c = '\\') (dir ++ base ++ ext)).getD npos + 1) %
      2 ^ 64 = dir.length := by
    rw [hslash]
    by_cases hd : dir = []
    · rw [if_pos hd, hd]; rfl
    · rw [if_neg hd]
      apply Nat.mod_eq_of_lt
      simp only [List.length_append] at hlen
      omega
  have hcount : base.length ≤ subSize (subSize
      ((findLast (fun c => c = '.') (dir ++ base ++ ext)).getD npos)
      ((findLast (fun c => c = '/' ∨ c = '\\') (dir ++ base ++ ext)).getD npos)) 1 ∧
      (ext ≠ [] → subSize (subSize
      ((findLast (fun c => c = '.') (dir ++ base ++ ext)).getD npos)
      ((findLast (fun c => c = '/' ∨ c = '\\') (dir ++ base ++ ext)).getD npos)) 1 =
        base.length) := by
    generalize hS : (findLast (fun c => c = '/' ∨ c = '\\') (dir ++ base ++ ext)).getD npos = S
      at hslash
    simp only [List.length_append] at hlen
    rcases hext with ⟨rfl, hb⟩ | ⟨e, rfl, he⟩
    · refine ⟨?_, fun h => absurd rfl h⟩
      by_cases hdd : ∀ c ∈ dir, c ≠ '.'
      · have : findLast (fun c => decide (c = '.')) (dir ++ base ++ []) = none := by
          apply findLast_none
          intro c hc
          simp only [List.append_nil, List.mem_append] at hc
          rcases hc with hc | hc
          · simpa using hdd c hc
          · simpa using hb c hc
        rw [this]
        simp only [Option.getD_none, subSize, npos]
        by_cases hd : dir = []
        · rw [if_pos hd] at hslash
          have : S = 2 ^ 64 - 1 := by omega
          subst this
          omega
        · rw [if_neg hd] at hslash
          omega
      · have hd : dir ≠ [] := by rintro rfl; exact hdd (by simp)
        rw [if_neg hd] at hslash
        -- the last dot is inside the directory
        have hex : ∃ i, findLast (fun c => decide (c = '.')) (dir ++ base ++ []) = some i ∧
            i + 1 < dir.length := by
          rcases hdir with rfl | ⟨d, c, rfl, hc⟩
          · exact absurd rfl hd
          · have hcd : c ≠ '.' := by rintro rfl; revert hc; decide
            have hdd' : ∃ x ∈ d, x = '.' := by
              by_contra hno
              apply hdd
              intro x hx
              rcases List.mem_append.1 hx with hx | hx
              · intro h; exact hno ⟨x, hx, h⟩
              · rw [List.mem_singleton.1 hx]; exact hcd
            -- split d at its last dot
            have hsplit : ∀ l : Str, (∃ x ∈ l, x = '.') →
                ∃ a b, l = a ++ '.' :: b ∧ ∀ x ∈ b, x ≠ '.' := by
              intro l
              induction l with
              | nil => rintro ⟨x, hx, _⟩; simp at hx
              | cons y t ih =>
                intro h
                by_cases ht : ∃ x ∈ t, x = '.'
                · obtain ⟨a, b, h1, h2⟩ := ih ht
                  exact ⟨y :: a, b, by rw [h1]; simp, h2⟩
                · obtain ⟨x, hx, rfl⟩ := h
                  rcases List.mem_cons.1 hx with rfl | hx
                  · exact ⟨[], t, rfl, fun x hx h => ht ⟨x, hx, h⟩⟩
                  · exact absurd ⟨_, hx, rfl⟩ ht
            obtain ⟨a, b, rfl, hb2⟩ := hsplit d hdd'
            refine ⟨a.length, ?_, by simp⟩
            rw [show a ++ '.' :: b ++ [c] ++ base ++ [] = a ++ '.' :: (b ++ c :: base) by simp]
            apply findLast_append
            · simp
            · intro x hx
              simp only [List.mem_append, List.mem_cons] at hx
              rcases hx with hx | rfl | hx
              · simpa using hb2 x hx
              · simpa using hcd
              · simpa using hb x hx
        obtain ⟨i, hi, hlt⟩ := hex
        rw [hi]
        simp only [Option.getD_some, subSize]
        omega
    · have : findLast (fun c => decide (c = '.')) (dir ++ base ++ '.' :: e) =
          some (dir ++ base).length := by
        apply findLast_append
        · simp
        · intro c hc; simpa using he c hc
      rw [this]
      simp only [Option.getD_some, subSize, List.length_append, List.length_cons] at *
      by_cases hd : dir = []
      · rw [if_pos hd] at hslash
        have : S = 2 ^ 64 - 1 := by omega
        subst this
        subst hd
        simp only [List.length_nil] at *
        omega
      · rw [if_neg hd] at hslash
        omega
  unfold splitPath
  simp only
  rw [hafter]
  have h1 : substr (dir ++ base ++ ext) 0 dir.length = some dir := by
    simp [substr]
  generalize hN : subSize (subSize
      ((findLast (fun c => c = '.') (dir ++ base ++ ext)).getD npos)
      ((findLast (fun c => c = '/' ∨ c = '\\') (dir ++ base ++ ext)).getD npos)) 1 = N at hcount
  have h2 : substr (dir ++ base ++ ext) dir.length N = some base := by
    unfold substr
    rw [if_neg (by simp)]
    rw [List.append_assoc, List.drop_left]
    by_cases he : ext = []
    · rw [he, List.append_nil, List.take_of_length_le hcount.1]
    · rw [hcount.2 he, List.take_left]
  rw [h1, h2]

/-- **C80** (place): the files are written in the directory of the input file, with its
name without the extension. -/
theorem C80_place (dir base ext : Str) (hlen : (dir ++ base ++ ext).length < 2 ^ 63)
    (hdir : dir = [] ∨ ∃ d c, dir = d ++ [c] ∧ isSep c = true)
    (hbase : ∀ c ∈ base ++ ext, isSep c = false)
    (hext : (ext = [] ∧ ∀ c ∈ base, c ≠ '.') ∨ ∃ e, ext = '.' :: e ∧ ∀ c ∈ e, c ≠ '.')
    (f : OutFile) :
    outPath (dir ++ base ++ ext) f = some (dir ++ base ++ f.suffix) := by
  unfold outPath
  rw [C80_split dir base ext hlen hdir hbase hext]

/-- **C80** (different files): the files written for an input file are different from each
other. -/
theorem C80_distinct (path : Str) (f g : OutFile) (a : Str) (hf : outPath path f = some a)
    (hg : outPath path g = some a) : f = g := by
  unfold outPath at hf hg
  cases hs : splitPath path with
  | none => rw [hs] at hf; exact absurd hf (by simp)
  | some p =>
    rw [hs] at hf hg
    obtain ⟨dir, base⟩ := p
    simp only [Option.some.injEq] at hf hg
    have h := hf.trans hg.symm
    rw [List.append_cancel_left_eq] at h
    cases f <;> cases g <;> simp [OutFile.suffix] at h ⊢ <;> exact h

/-- **C80** (the input file is kept): no file written is the input file, but for an input
file with the extension `.out` or `.log`. -/
theorem C80_input_partial (dir base ext : Str) (hlen : (dir ++ base ++ ext).length < 2 ^ 63)
    (hdir : dir = [] ∨ ∃ d c, dir = d ++ [c] ∧ isSep c = true)
    (hbase : ∀ c ∈ base ++ ext, isSep c = false)
    (hext : (ext = [] ∧ ∀ c ∈ base, c ≠ '.') ∨ ∃ e, ext = '.' :: e ∧ ∀ c ∈ e, c ≠ '.')
    (h1 : ext ≠ ".out".toList) (h2 : ext ≠ ".log".toList) (f : OutFile) :
    outPath (dir ++ base ++ ext) f ≠ some (dir ++ base ++ ext) := by
  rw [C80_place dir base ext hlen hdir hbase hext f]
  intro h
  simp only [Option.some.injEq, List.append_cancel_left_eq] at h
  have hne : ∀ t : Str, '_' :: t ≠ ext := by
    rintro t rfl
    rcases hext with ⟨he, _⟩ | ⟨e, he, _⟩
    · exact absurd he (by simp)
    · simp at he
  cases f with
  | main => exact h1 h.symm
  | log => exact h2 h.symm
  | line n => exact hne _ h
  | body n => exact hne _ h
  | rod n => exact hne _ h

/-- **C80** fails for an input file with the extension `.out`: the main file of results
takes its place. -/
theorem C80_input_false : ∃ path : Str, outPath path .main = some path :=
  ⟨"Mooring/lines.out".toList, by decide +kernel⟩

/-- **C80** fails for input files that differ in the extension only: they share the files
written. -/
theorem C80_shared_false : ∃ p q : Str, p ≠ q ∧ ∀ f, outPath p f = outPath q f := by
  refine ⟨"a/lines.txt".toList, "a/lines.dat".toList, by decide, fun f => ?_⟩
  have h : splitPath "a/lines.txt".toList = splitPath "a/lines.dat".toList := by decide +kernel
  unfold outPath
  rw [h]

example : outPath "a.b/lines.v2.txt".toList (.line "3".toList) =
    some "a.b/lines.v2_Line3.out".toList := by decide +kernel
example : outPath "a.b/lines".toList .log = some "a.b/lines.log".toList := by decide +kernel
example : outPath "lines.txt".toList .main = some "lines.out".toList := by decide +kernel

end MD.Options
