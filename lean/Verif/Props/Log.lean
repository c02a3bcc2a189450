import Mathlib.Data.List.Induction
import Mathlib.Tactic.Ring
import Mathlib.Tactic.Linarith
import Mathlib.Logic.Function.Basic
import Verif.Model.Log

/-!
# Routing of the log (C53)

The specification looks at the history of operations only: the verbosity and the file level
in force at a message are those of the last call setting them, the file is the one of the last
successful opening with no other attempt to open one in between.
-/

set_option linter.unusedSimpArgs false
set_option linter.unusedVariables false

namespace MD.Log

open MD.Text (Str)

/-- The verbosity in force after the operations. -/
def lastVerbosity (ops : List Op) : ℤ :=
  (ops.reverse.findSome? fun | .verbosity v => some v | _ => none).getD 1

/-- The level of the log file in force after the operations. -/
def lastLevel (ops : List Op) : ℤ :=
  (ops.reverse.findSome? fun | .level l => some l | _ => none).getD 0

def isFile : Op → Bool
  | .file _ _ => true
  | _ => false

/-- The pieces of the messages `i` of the history satisfying `C i level`, in order. -/
def logged (C : ℕ → ℤ → Prop) [∀ i l, Decidable (C i l)] (ops : List Op) : List Str :=
  (List.range ops.length).flatMap fun i : ℕ =>
    match ops[i]? with
    | some (Op.message l ps) => if C i l then ps else []
    | _ => []

/-- At time `i` the file `p` is the log file: it was opened and no other attempt of opening
was made since. -/
def LogFileAt (ops : List Op) (p : Str) (i : ℕ) : Prop :=
  ∃ j < i, ops[j]? = some (.file p true) ∧
    ∀ k, j < k → k < i → ∀ o, ops[k]? = some o → isFile o = false

/-- `p` is not opened (hence truncated) again from time `i` on. -/
def NotReopened (ops : List Op) (p : Str) (i : ℕ) : Prop :=
  ∀ k, i ≤ k → ops[k]? ≠ some (.file p true)

theorem lastVerbosity_snoc (ops : List Op) (o : Op) : lastVerbosity (ops ++ [o]) =
    match o with | .verbosity v => v | _ => lastVerbosity ops := by
  cases o <;> simp [lastVerbosity]

theorem lastLevel_snoc (ops : List Op) (o : Op) : lastLevel (ops ++ [o]) =
    match o with | .level v => v | _ => lastLevel ops := by
  cases o <;> simp [lastLevel]

theorem run_snoc (s : State) (ops : List Op) (o : Op) :
    run s (ops ++ [o]) = step (run s ops) o := by
  simp [run]

/-- Effect of the pieces of a message. -/
theorem put_all (s : State) (ps : List Str) :
    (ps.foldl put s).verbosity = s.verbosity ∧ (ps.foldl put s).fileLevel = s.fileLevel ∧
    (ps.foldl put s).file = s.file ∧ (ps.foldl put s).enabled = s.enabled ∧
    (ps.foldl put s).terminal = s.terminal ∧
    (ps.foldl put s).out = s.out ++ (if s.terminal = .out then ps else []) ∧
    (ps.foldl put s).err = s.err ++ (if s.terminal = .err then ps else []) ∧
    ∀ p, (ps.foldl put s).files p =
      s.files p ++ (if s.enabled = true ∧ s.file = some p then ps else []) := by
  induction ps generalizing s with
  | nil => simp
  | cons x ps ih =>
    rw [List.foldl_cons]
    obtain ⟨h1, h2, h3, h4, h5, h6, h7, h8⟩ := ih (put s x)
    have a1 : (put s x).verbosity = s.verbosity := by
      unfold put putTerminal putFile; split <;> split <;> rfl
    have a2 : (put s x).fileLevel = s.fileLevel := by
      unfold put putTerminal putFile; split <;> split <;> rfl
    have a3 : (put s x).file = s.file := by
      unfold put putTerminal putFile; split <;> split <;> rfl
    have a4 : (put s x).enabled = s.enabled := by
      unfold put putTerminal putFile; split <;> split <;> rfl
    have t1 : (putFile s x).terminal = s.terminal := by unfold putFile; split <;> rfl
    have t2 : (putFile s x).out = s.out := by unfold putFile; split <;> rfl
    have t3 : (putFile s x).err = s.err := by unfold putFile; split <;> rfl
    have a5 : (put s x).terminal = s.terminal := by
      rw [← t1]; unfold put putTerminal; split <;> rfl
    have a6 : (put s x).out = s.out ++ (if s.terminal = .out then [x] else []) := by
      rw [← t1, ← t2]; unfold put putTerminal; split <;> next he => simp [he]
    have a7 : (put s x).err = s.err ++ (if s.terminal = .err then [x] else []) := by
      rw [← t1, ← t3]; unfold put putTerminal; split <;> next he => simp [he]
    have a8 : ∀ p, (put s x).files p =
        s.files p ++ (if s.enabled = true ∧ s.file = some p then [x] else []) := by
      intro p
      have : (put s x).files = (putFile s x).files := by unfold put putTerminal; split <;> rfl
      rw [this]
      unfold putFile
      split
      · next p' he hf =>
        by_cases hp : p' = p
        · subst hp; simp [he, hf]
        · rw [if_neg (by rw [hf]; simp [hp])]
          simp [Function.update_of_ne (Ne.symm hp)]
      · next hne =>
        rw [if_neg (by rintro ⟨he, hf⟩; exact hne _ he hf)]
        simp
    refine ⟨h1.trans a1, h2.trans a2, h3.trans a3, h4.trans a4, h5.trans a5, ?_, ?_, ?_⟩
    · rw [h6, a6, a5]; split_ifs <;> simp
    · rw [h7, a7, a5]; split_ifs <;> simp
    · intro p; rw [h8, a8, a4, a3]; split_ifs <;> simp

theorem message_spec (s : State) (l : ℤ) (ps : List Str) :
    (message s l ps).verbosity = s.verbosity ∧ (message s l ps).fileLevel = s.fileLevel ∧
    (message s l ps).file = s.file ∧
    (message s l ps).out = s.out ++ (if s.verbosity ≤ l ∧ l < 3 then ps else []) ∧
    (message s l ps).err = s.err ++ (if s.verbosity ≤ l ∧ 3 ≤ l then ps else []) ∧
    ∀ p, (message s l ps).files p =
      s.files p ++ (if s.fileLevel ≤ l ∧ s.file = some p then ps else []) := by
  obtain ⟨h1, h2, h3, h4, h5, h6, h7, h8⟩ := put_all (cout s l) ps
  have t0 : (cout s l).terminal =
    if l < s.verbosity then .null else if l ≥ 3 then .err else .out := rfl
  have t1 : (cout s l).terminal = .out ↔ s.verbosity ≤ l ∧ l < 3 := by
    rw [t0]; split_ifs <;> simp <;> omega
  have t2 : (cout s l).terminal = .err ↔ s.verbosity ≤ l ∧ 3 ≤ l := by
    rw [t0]; split_ifs <;> simp <;> omega
  have t3 : (cout s l).enabled = true ↔ s.fileLevel ≤ l := by
    have : (cout s l).enabled = if l < s.fileLevel then false else true := rfl
    rw [this]; split_ifs <;> simp <;> omega
  refine ⟨h1, h2, h3, ?_, ?_, ?_⟩
  · unfold message
    rw [h6]
    simp only [t1]
    rfl
  · unfold message
    rw [h7]
    simp only [t2]
    rfl
  · intro p
    unfold message
    rw [h8]
    simp only [t3]
    rfl

theorem levels_run (files : Str → List Str) (ops : List Op) :
    (run (init files) ops).verbosity = lastVerbosity ops ∧
    (run (init files) ops).fileLevel = lastLevel ops := by
  induction ops using List.reverseRecOn with
  | nil => exact ⟨rfl, rfl⟩
  | append_singleton ops o ih =>
    rw [run_snoc, lastVerbosity_snoc, lastLevel_snoc]
    cases o with
    | verbosity v => exact ⟨rfl, ih.2⟩
    | level l => exact ⟨ih.1, rfl⟩
    | file p b =>
      simp only [step, setFile]
      split_ifs <;> exact ih
    | message l ps =>
      obtain ⟨h1, h2, -⟩ := message_spec (run (init files) ops) l ps
      exact ⟨h1.trans ih.1, h2.trans ih.2⟩

theorem logged_snoc (C : ℕ → ℤ → Prop) [∀ i l, Decidable (C i l)]
    (D : ℕ → ℤ → Prop) [∀ i l, Decidable (D i l)] (ops : List Op) (o : Op)
    (h : ∀ i < ops.length, ∀ l, C i l ↔ D i l) :
    logged C (ops ++ [o]) = logged D ops ++
      (match o with
       | .message l ps => if C ops.length l then ps else []
       | _ => []) := by
  unfold logged
  rw [List.length_append, List.length_singleton, List.range_succ, List.flatMap_append]
  congr 1
  · apply List.flatMap_congr
    intro i hi
    rw [List.mem_range] at hi
    rw [List.getElem?_append_left hi]
    split
    · next l ps _ => by_cases hc : C i l
                     · rw [if_pos hc, if_pos ((h i hi l).1 hc)]
                     · rw [if_neg hc, if_neg (mt (h i hi l).2 hc)]
    · rfl
  · simp
    cases o <;> rfl

/-- **C53** (terminal). After any history of operations the standard output has received
exactly the messages below the error level and at least at the verbosity in force when they
were logged, and the standard error exactly those at the error level or above and at least at
the verbosity, in order. -/
theorem C53_terminal (files : Str → List Str) (ops : List Op) :
    (run (init files) ops).out =
      logged (fun i l => lastVerbosity (ops.take i) ≤ l ∧ l < 3) ops ∧
    (run (init files) ops).err =
      logged (fun i l => lastVerbosity (ops.take i) ≤ l ∧ 3 ≤ l) ops := by
  induction ops using List.reverseRecOn with
  | nil => exact ⟨rfl, rfl⟩
  | append_singleton ops o ih =>
    obtain ⟨hv, -⟩ := levels_run files ops
    have ht : ∀ i < ops.length, (ops ++ [o]).take i = ops.take i := fun i hi =>
      List.take_append_of_le_length (by omega)
    rw [logged_snoc _ (fun i l => lastVerbosity (ops.take i) ≤ l ∧ l < 3) ops o
        (fun i hi l => by rw [ht i hi]),
      logged_snoc _ (fun i l => lastVerbosity (ops.take i) ≤ l ∧ 3 ≤ l) ops o
        (fun i hi l => by rw [ht i hi]), ← ih.1, ← ih.2, run_snoc]
    cases o with
    | verbosity v => simp [step]
    | level l => simp [step]
    | file p b => simp only [step, setFile]; split_ifs <;> simp
    | message l ps =>
      obtain ⟨-, -, -, h4, h5, -⟩ := message_spec (run (init files) ops) l ps
      simp only [step]
      rw [h4, h5, hv]
      simp

/-- **C53** (levels). Debug messages, messages, warnings and errors are told apart, and `writeLog` 1, 2 and 3 or more
ask for warnings, messages and debug messages and all that is more severe; 0 or less for nothing. -/
theorem C53_levels (s : State) (w : ℤ) (p : Str) (opens : Bool) :
    (DBG < MSG ∧ MSG < WRN ∧ WRN < ERR ∧ ERR < NO_OUTPUT) ∧
    (setupLog s w p opens).1.fileLevel =
      if w ≤ 0 then NO_OUTPUT else if w = 1 then WRN else if w = 2 then MSG else DBG := by
  refine ⟨by decide, ?_⟩
  have e : (setupLog s w p opens).1.fileLevel =
      (if (if ERR - w ≥ ERR then NO_OUTPUT else ERR - w) < DBG then DBG
        else if ERR - w ≥ ERR then NO_OUTPUT else ERR - w) := by
    unfold setupLog setFile
    dsimp only
    split_ifs <;> rfl
  rw [e]
  simp only [ERR, NO_OUTPUT, DBG, WRN, MSG]
  split_ifs <;> omega

/-- The file that is open is that of the history. -/
theorem file_run (files : Str → List Str) (ops : List Op) (p : Str) :
    (run (init files) ops).file = some p ↔ LogFileAt ops p ops.length := by
  induction ops using List.reverseRecOn with
  | nil => simp [run, init, LogFileAt]
  | append_singleton ops o ih =>
    have hget : ∀ j < ops.length, (ops ++ [o])[j]? = ops[j]? := fun j hj =>
      List.getElem?_append_left hj
    have hlast : (ops ++ [o])[ops.length]? = some o := by simp
    rw [run_snoc]
    have keep : isFile o = false → (LogFileAt (ops ++ [o]) p (ops ++ [o]).length ↔
        LogFileAt ops p ops.length) := by
      intro ho
      constructor
      · rintro ⟨j, hj, h1, h2⟩
        have hj' : j < ops.length := by
          by_contra hge
          have : j = ops.length := by simp at hj; omega
          subst this
          rw [hlast] at h1
          cases h1
          simp [isFile] at ho
        refine ⟨j, hj', by rw [← hget j hj']; exact h1, fun k hk hk' q hq => ?_⟩
        exact h2 k hk (by simp; omega) q (by rw [hget k hk']; exact hq)
      · rintro ⟨j, hj, h1, h2⟩
        refine ⟨j, by simp; omega, by rw [hget j hj]; exact h1, fun k hk hk' q hq => ?_⟩
        by_cases hkl : k < ops.length
        · exact h2 k hk hkl q (by rw [← hget k hkl]; exact hq)
        · have : k = ops.length := by simp at hk'; omega
          subst this
          rw [hlast] at hq
          cases hq
          exact ho
    cases o with
    | verbosity v => exact ih.trans (keep rfl).symm
    | level l => exact ih.trans (keep rfl).symm
    | message l ps =>
      obtain ⟨-, -, h3, -⟩ := message_spec (run (init files) ops) l ps
      simp only [step]
      rw [h3]
      exact ih.trans (keep rfl).symm
    | file q b =>
      have : LogFileAt (ops ++ [Op.file q b]) p (ops ++ [Op.file q b]).length ↔
          q = p ∧ b = true := by
        constructor
        · rintro ⟨j, hj, h1, h2⟩
          by_cases hjl : j < ops.length
          · have := h2 ops.length hjl (by simp) _ hlast
            simp [isFile] at this
          · have : j = ops.length := by simp at hj; omega
            subst this
            rw [hlast] at h1
            simpa using h1
        · rintro ⟨rfl, rfl⟩
          refine ⟨ops.length, by simp, hlast, fun k hk hk' => ?_⟩
          simp at hk'
          omega
      rw [this]
      cases b <;> simp [step, setFile]

open Classical in
/-- **C53** (file). After any history every file contains, if it was ever opened as a log,
exactly the messages logged since it was last opened, while it was the log file, at least at
the file level in force, in order; otherwise it is untouched. In particular opening another
file, even without success, closes the previous one. -/
theorem C53_file (files : Str → List Str) (ops : List Op) (p : Str) :
    (run (init files) ops).files p =
      (if Op.file p true ∈ ops then [] else files p) ++
      logged (fun i l => lastLevel (ops.take i) ≤ l ∧ LogFileAt ops p i ∧ NotReopened ops p i)
        ops := by
  induction ops using List.reverseRecOn with
  | nil => simp [run, init, logged]
  | append_singleton ops o ih =>
    obtain ⟨-, hv⟩ := levels_run files ops
    have hfile := file_run files ops p
    have hget : ∀ j < ops.length, (ops ++ [o])[j]? = ops[j]? := fun j hj =>
      List.getElem?_append_left hj
    have hlast : (ops ++ [o])[ops.length]? = some o := by simp
    have ht : ∀ i ≤ ops.length, (ops ++ [o]).take i = ops.take i := fun i hi =>
      List.take_append_of_le_length hi
    have hat : ∀ i ≤ ops.length, LogFileAt (ops ++ [o]) p i ↔ LogFileAt ops p i := by
      intro i hi
      constructor <;> rintro ⟨j, hj, h1, h2⟩ <;>
        refine ⟨j, hj, ?_, fun k hk hk' q hq => h2 k hk hk' q ?_⟩
      · rw [← hget j (by omega)]; exact h1
      · rw [hget k (by omega)]; exact hq
      · rw [hget j (by omega)]; exact h1
      · rw [← hget k (by omega)]; exact hq
    rw [run_snoc]
    by_cases ho : o = .file p true
    · subst ho
      rw [if_pos (by simp)]
      have hnone : logged (fun i l => lastLevel ((ops ++ [Op.file p true]).take i) ≤ l ∧
          LogFileAt (ops ++ [Op.file p true]) p i ∧
          NotReopened (ops ++ [Op.file p true]) p i) (ops ++ [Op.file p true]) = [] := by
        rw [logged_snoc _ (fun _ _ => False) ops _ (fun i hi l => by
          simp only [iff_false]
          rintro ⟨-, -, h⟩
          exact h ops.length (by omega) hlast)]
        simp only [List.append_nil]
        unfold logged
        rw [List.flatMap_eq_nil_iff]
        intro i _
        split
        · simp
        · rfl
      rw [hnone]
      simp [step, setFile]
    · have hre : ∀ i ≤ ops.length, NotReopened (ops ++ [o]) p i ↔ NotReopened ops p i := by
        intro i hi
        constructor
        · intro h k hk hc
          have hkl : k < ops.length := by
            by_contra hge
            rw [List.getElem?_eq_none (by omega)] at hc
            exact absurd hc (by simp)
          exact h k hk (by rw [hget k hkl]; exact hc)
        · intro h k hk hc
          by_cases hkl : k < ops.length
          · exact h k hk (by rw [← hget k hkl]; exact hc)
          · by_cases hk2 : k = ops.length
            · subst hk2; rw [hlast] at hc; exact ho (by simpa using hc)
            · rw [List.getElem?_eq_none (by simp; omega)] at hc
              exact absurd hc (by simp)
      have hmem : Op.file p true ∈ ops ++ [o] ↔ Op.file p true ∈ ops := by
        simp [Ne.symm ho]
      rw [logged_snoc _ (fun i l => lastLevel (ops.take i) ≤ l ∧ LogFileAt ops p i ∧
          NotReopened ops p i) ops o (fun i hi l => by
            rw [ht i (by omega), hat i (by omega), hre i (by omega)])]
      have hprefix : (if Op.file p true ∈ ops ++ [o] then ([] : List Str) else files p) =
          if Op.file p true ∈ ops then [] else files p := by
        by_cases hm : Op.file p true ∈ ops
        · rw [if_pos hm, if_pos (hmem.2 hm)]
        · rw [if_neg hm, if_neg (mt hmem.1 hm)]
      rw [hprefix, ← List.append_assoc, ← ih]
      cases o with
      | verbosity v => simp [step]
      | level l => simp [step]
      | file q b =>
        cases b with
        | false => simp [step, setFile]
        | true =>
          have hq : p ≠ q := fun e => ho (by rw [e])
          simp [step, setFile, Function.update_of_ne hq]
      | message l ps =>
        obtain ⟨-, -, -, -, -, h6⟩ := message_spec (run (init files) ops) l ps
        simp only [step]
        rw [h6, hv]
        congr 1
        have hlen : NotReopened (ops ++ [Op.message l ps]) p ops.length := by
          rw [hre _ le_rfl]
          intro k hk
          rw [List.getElem?_eq_none hk]
          simp
        by_cases hc : lastLevel ops ≤ l ∧ (run (init files) ops).file = some p
        · rw [if_pos hc, if_pos]
          refine ⟨by rw [ht _ le_rfl, List.take_length]; exact hc.1,
            (hat _ le_rfl).2 (hfile.1 hc.2), hlen⟩
        · rw [if_neg hc, if_neg]
          rintro ⟨h1, h2, -⟩
          rw [ht _ le_rfl, List.take_length] at h1
          exact hc ⟨h1, hfile.2 ((hat _ le_rfl).1 h2)⟩

/-- **C53** (option `writeLog`). With `writeLog` positive the log gets, with a file that can be
opened, the warnings and errors if it is 1, also the messages if it is 2 and everything if it
is more; with zero or less, nothing (below the level 4096). An error is returned if and only
if a log is wanted and its file cannot be opened. -/
theorem C53_writeLog (s : State) (w : ℤ) (p : Str) (opens : Bool) (l : ℤ) (ps : List Str)
    (hl : 0 ≤ l) (hl' : l < 4096) :
    ((setupLog s w p opens).2 = true ↔ 0 < w ∧ opens = false) ∧
    (0 < w → opens = true →
      (message (setupLog s w p opens).1 l ps).files p =
        if (w = 1 → 2 ≤ l) ∧ (w = 2 → 1 ≤ l) then ps else []) ∧
    (w ≤ 0 → (message (setupLog s w p opens).1 l ps).files = s.files) := by
  refine ⟨?_, ?_, ?_⟩
  · unfold setupLog setFile
    by_cases hw : w > 0
    · simp only [if_pos hw]
      cases opens <;> simp [hw]
    · simp only [if_neg hw]
      simp
      omega
  · intro hw ho
    subst ho
    obtain ⟨-, -, -, -, -, h6⟩ := message_spec (setupLog s w p true).1 l ps
    rw [h6]
    have e1 : (setupLog s w p true).1.files p = [] := by
      unfold setupLog setFile; simp [hw]
    have e2 : (setupLog s w p true).1.file = some p := by
      unfold setupLog setFile; simp [hw]
    have e3 : (setupLog s w p true).1.fileLevel = if 3 - w < 0 then 0 else 3 - w := by
      unfold setupLog setFile
      simp only [ERR, DBG, NO_OUTPUT, if_pos hw, if_true]
      split_ifs <;> omega
    rw [e1, e2, e3, List.nil_append]
    by_cases hc : (w = 1 → 2 ≤ l) ∧ (w = 2 → 1 ≤ l)
    · rw [if_pos hc, if_pos ⟨by split_ifs <;> omega, rfl⟩]
    · rw [if_neg hc, if_neg]
      rintro ⟨h1, -⟩
      split_ifs at h1 <;> omega
  · intro hw
    obtain ⟨-, -, -, -, -, h6⟩ := message_spec (setupLog s w p opens).1 l ps
    have e1 : (setupLog s w p opens).1.files = s.files := by
      unfold setupLog; simp [show ¬ (0 < w) by omega]
    have e3 : (setupLog s w p opens).1.fileLevel = 4096 := by
      unfold setupLog
      simp only [ERR, DBG, NO_OUTPUT, if_neg (show ¬ (w > 0) by omega)]
      split_ifs <;> omega
    funext q
    rw [h6, e1, e3, if_neg (by omega), List.append_nil]

example : (run (init fun _ => ["old".toList])
    [.message 0 ["a".toList], .verbosity 0, .message 0 ["b".toList], .message 3 ["c".toList],
     .file "f".toList true, .level 2, .message 1 ["d".toList], .message 2 ["e".toList],
     .file "g".toList false, .message 3 ["h".toList]]).files "f".toList = ["e".toList] := by
  decide +kernel

example : (run (init fun _ => ["old".toList])
    [.message 0 ["a".toList], .verbosity 0, .message 0 ["b".toList], .message 3 ["c".toList],
     .file "f".toList true, .level 2, .message 1 ["d".toList], .message 2 ["e".toList]]).out =
    ["b".toList, "d".toList, "e".toList] := by
  decide +kernel

end MD.Log
