import Mathlib.Data.List.Nodup
import Verif.Model.Api

/-!
# Error codes, handles, the legacy interface and the tension arrays (C43, C44, C45, C56)
-/

set_option linter.unusedSimpArgs false
set_option linter.unusedVariables false

namespace MD.Api

/-! ## C43: exceptions and error codes -/

/-- Specification: the code documented for each kind of exception (the comments of
source/Misc.hpp:555-570 and source/MoorDynAPI.h:130-159); other exceptions have none. -/
def Documents (e : Exc) (code : ℤ) : Prop :=
  (e = .inputFile ∧ code = -1) ∨ (e = .outputFile ∧ code = -2) ∨ (e = .input ∧ code = -3) ∨
  (e = .nan ∧ code = -4) ∨ (e = .mem ∧ code = -5) ∨ (e = .value ∧ code = -6) ∨
  (e = .notImplemented ∧ code = -7) ∨ (e = .unhandled ∧ code = -255)

/-- The exceptions the C functions handle. -/
def Exc.Handled (e : Exc) : Prop := e ≠ .notImplemented ∧ e ≠ .foreign

/-- An error code is turned into the exception it documents; unknown codes into the
exception for unhandled errors; only success raises none. -/
theorem C43_throw (code : ℤ) :
    (code = 0 → throwErr code = .ok ()) ∧
    (code ≠ 0 → ∃ e, throwErr code = .error e ∧
      (Documents e code ∨ (e = .unhandled ∧ ∀ e', ¬ Documents e' code))) := by
  constructor
  · rintro rfl; rfl
  · intro h
    unfold throwErr
    rw [if_neg h]
    split_ifs with h1 h2 h3 h4 h5 h6 h7
    · exact ⟨_, rfl, .inl (by simp [Documents, h1])⟩
    · exact ⟨_, rfl, .inl (by simp [Documents, h2])⟩
    · exact ⟨_, rfl, .inl (by simp [Documents, h3])⟩
    · exact ⟨_, rfl, .inl (by simp [Documents, h4])⟩
    · exact ⟨_, rfl, .inl (by simp [Documents, h5])⟩
    · exact ⟨_, rfl, .inl (by simp [Documents, h6])⟩
    · exact ⟨_, rfl, .inl (by simp [Documents, h7])⟩
    · by_cases h8 : code = -255
      · exact ⟨_, rfl, .inl (by simp [Documents, h8])⟩
      · refine ⟨_, rfl, .inr ⟨rfl, ?_⟩⟩
        rintro e' (h | h | h | h | h | h | h | h) <;> omega

example : throwErr (-4) = .error .nan := by decide

theorem catcher_documents {e : Exc} (h : e.Handled) :
    ∃ c, catcher e = some c ∧ Documents e c := by
  cases e <;> simp [catcher, Documents, Exc.Handled] at *

theorem catcher_inj {e e' : Exc} {c : ℤ} (h : catcher e = some c) (h' : catcher e' = some c) :
    e = e' := by
  cases e <;> cases e' <;> simp [catcher] at * <;> omega

/-- A guarded API function in which the library raises a handled exception returns its
documented code, which is not success, and leaves the output arguments untouched; without
an exception it returns success and the result. -/
theorem C43_guarded_partial {α : Type} (out : α) (body : Except Exc (Option α)) :
    (∀ e, body = .error e → e.Handled →
      ∃ c, guarded out body = .returns c out ∧ Documents e c ∧ c ≠ 0) ∧
    (∀ a, body = .ok (some a) → guarded out body = .returns 0 a) := by
  constructor
  · rintro e rfl h
    obtain ⟨c, hc, hd⟩ := catcher_documents h
    refine ⟨c, by simp [guarded, hc], hd, ?_⟩
    rintro rfl
    rcases hd with h | h | h | h | h | h | h | h <;> omega
  · rintro a rfl; rfl

example : guarded (0 : ℕ) (.error .nan) = .returns (-4) 0 := by decide

/-- Different handled exceptions can be told apart by the code. -/
theorem C43_codes_distinct (e e' : Exc) (h : e.Handled) (h' : e'.Handled) (hne : e ≠ e') :
    catcher e ≠ catcher e' := by
  intro hc
  obtain ⟨c, h1, _⟩ := catcher_documents h
  exact hne (catcher_inj h1 (hc ▸ h1))

/-- What the property claims for guarded functions is false for one kind of the library's
own exceptions: the one for features not implemented passes through. -/
theorem C43_guarded_false :
    ¬ ∀ (e : Exc) (c : ℤ), Documents e c →
      ∃ c', guarded () (.error e) = .returns c' () := by
  intro h
  obtain ⟨c', hc⟩ := h .notImplemented (-7) (by simp [Documents])
  simp [guarded, catcher] at hc

/-- A system that cannot be created: the handle is null exactly when reading the input
failed with a handled exception or an error code other than `NON_IMPLEMENTED`, and the
message reports the documented code of the failure. -/
theorem C43_create {S : Type} (code : ℤ) (sys : S) :
    (code = 0 → create (.ok code) sys = .returns 0 (some sys)) ∧
    (code = -7 → create (.ok code) sys = .escapes .notImplemented) ∧
    (code ≠ 0 → code ≠ -7 → ∃ c, create (.ok code) sys = .returns c none ∧ c ≠ 0 ∧
      (c = code ∨ c = -255)) := by
  refine ⟨?_, ?_, ?_⟩
  · rintro rfl; rfl
  · rintro rfl; rfl
  · intro h0 h7
    by_cases h1 : code = -1
    · subst h1; exact ⟨-1, rfl, by decide, .inl rfl⟩
    by_cases h2 : code = -2
    · subst h2; exact ⟨-2, rfl, by decide, .inl rfl⟩
    by_cases h3 : code = -3
    · subst h3; exact ⟨-3, rfl, by decide, .inl rfl⟩
    by_cases h4 : code = -4
    · subst h4; exact ⟨-4, rfl, by decide, .inl rfl⟩
    by_cases h5 : code = -5
    · subst h5; exact ⟨-5, rfl, by decide, .inl rfl⟩
    by_cases h6 : code = -6
    · subst h6; exact ⟨-6, rfl, by decide, .inl rfl⟩
    · refine ⟨-255, ?_, by decide, .inr rfl⟩
      have : throwErr code = .error .unhandled := by
        simp [throwErr, h0, h1, h2, h3, h4, h5, h6, h7]
      simp [create, construct, this, bind, Except.bind, catcher]

/-- An exception that is not the library's own (a malformed number given to `WaveKin`, an
impossible number of segments) leaves `MoorDyn_Create` instead of giving a null handle. -/
theorem C43_create_false :
    ¬ ∀ (read : Except Exc ℤ), ∃ c h, create read () = .returns c h := by
  intro h
  obtain ⟨c, h', hc⟩ := h (.error .foreign)
  simp [create, construct, bind, Except.bind, catcher] at hc

/-- A list of stages runs up to the first one that fails, and not beyond. -/
theorem stages_first (pre : List (Except Exc Unit)) (hpre : ∀ s ∈ pre, s = .ok ())
    (e : Exc) (post : List (Except Exc Unit)) :
    (stages (pre ++ .error e :: post)) = (pre.length + 1,
      some (match catcher e with | some c => .returns c () | none => .escapes e)) := by
  induction pre with
  | nil => simp only [List.nil_append, stages]; cases catcher e <;> rfl
  | cons s ss ih =>
    have hs : s = .ok () := hpre s (by simp)
    subst hs
    have := ih (fun s hs => hpre s (by simp [hs]))
    simp only [List.cons_append, stages, this, List.length_cons]

theorem stages_ok (l : List (Except Exc Unit)) (h : ∀ s ∈ l, s = .ok ()) :
    stages l = (l.length, none) := by
  induction l with
  | nil => rfl
  | cons s ss ih =>
    have hs : s = .ok () := h s (by simp)
    subst hs
    simp [stages, ih (fun s hs => h s (by simp [hs]))]

/-- A step in which an internal step of the integrator fails with a handled exception:
`MoorDyn_Step` returns its documented code, whatever would follow. -/
theorem C43_step_integrator (r : StepRun) (hi : r.initiate = .ok ())
    (pre post : List (Except Exc Unit)) (hpre : ∀ s ∈ pre, s = .ok ()) (e : Exc)
    (he : e.Handled) (hs : r.substeps = pre ++ .error e :: post) :
    ∃ c, step r = .returns c () ∧ Documents e c ∧ (stages r.substeps).1 = pre.length + 1 := by
  obtain ⟨c, hc, hd⟩ := catcher_documents he
  refine ⟨c, ?_, hd, by rw [hs, stages_first pre hpre]⟩
  unfold step
  rw [hi, hs, stages_first pre hpre, hc]

/-- The same for an output channel, when everything before it succeeds. -/
theorem C43_step_output (r : StepRun) (hi : r.initiate = .ok ())
    (hs : ∀ s ∈ r.substeps, s = .ok ()) (hd : ∀ s ∈ r.detach, s = .ok ())
    (hrow : r.row = true) (hf : r.fileOpen = true)
    (pre post : List (Except Exc Unit)) (hpre : ∀ s ∈ pre, s = .ok ()) (e : Exc)
    (he : e.Handled) (hc : r.channels = pre ++ .error e :: post) :
    ∃ c, step r = .returns c () ∧ Documents e c := by
  obtain ⟨c, hcc, hdd⟩ := catcher_documents he
  refine ⟨c, ?_, hdd⟩
  have hc0 : c ≠ 0 := by
    rintro rfl
    rcases hdd with h | h | h | h | h | h | h | h <;> omega
  unfold step
  rw [hi, stages_ok _ hs, stages_ok _ hd]
  have : allOutput r = .returns c () := by
    unfold allOutput
    rw [hrow, hf, hc, stages_first pre hpre, hcc]; rfl
  rw [this]
  simp only
  split
  · rename_i h; simp at h; exact absurd h hc0
  · rfl

/-- A step that raises no exception returns the code of recovering the forces; with the
main output file closed, the error for it when a row is due. -/
theorem C43_step_ok (r : StepRun) (hi : r.initiate = .ok ())
    (hs : ∀ s ∈ r.substeps, s = .ok ()) (hd : ∀ s ∈ r.detach, s = .ok ())
    (hc : ∀ s ∈ r.channels, s = .ok ()) :
    step r = if r.row = true ∧ r.fileOpen = false then .returns (-2) ()
      else .returns r.forces () := by
  unfold step
  rw [hi, stages_ok _ hs, stages_ok _ hd]
  unfold allOutput
  rw [stages_ok _ hc]
  cases r.row <;> cases r.fileOpen <;> rfl

/-- No exception of the library's handled kinds raised by the integrator, the failures or
the output leaves `MoorDyn_Step`, provided the coupled objects accept their motion. -/
theorem C43_step_partial (r : StepRun) (hi : r.initiate = .ok ())
    (h : ∀ s ∈ r.substeps ++ r.detach ++ r.channels, ∀ e, s = .error e → e.Handled) :
    ∃ c, step r = .returns c () := by
  have key : ∀ l : List (Except Exc Unit), (∀ s ∈ l, ∀ e, s = .error e → e.Handled) →
      (stages l).2 = none ∨ ∃ c, (stages l).2 = some (.returns c ()) := by
    intro l
    induction l with
    | nil => intro _; exact .inl rfl
    | cons s ss ih =>
      intro hl
      cases s with
      | ok u =>
        simp only [stages]
        exact ih (fun s hs => hl s (by simp [hs]))
      | error e =>
        obtain ⟨c, hc, _⟩ := catcher_documents (hl _ (by simp) e rfl)
        exact .inr ⟨c, by simp [stages, hc]⟩
  have h1 := key r.substeps (fun s hs => h s (by simp [hs]))
  have h2 := key r.detach (fun s hs => h s (by simp [hs]))
  have h3 := key r.channels (fun s hs => h s (by simp [hs]))
  unfold step
  rw [hi]
  rcases h1 with h1 | ⟨c, h1⟩
  · rw [h1]
    rcases h2 with h2 | ⟨c, h2⟩
    · rw [h2]
      have : ∃ c, allOutput r = .returns c () := by
        unfold allOutput
        split_ifs
        · rcases h3 with h3 | ⟨c, h3⟩
          · exact ⟨0, by rw [h3]; rfl⟩
          · exact ⟨c, by rw [h3]; rfl⟩
        · exact ⟨_, rfl⟩
        · exact ⟨_, rfl⟩
      obtain ⟨c, hc⟩ := this
      rw [hc]
      simp only
      split
      · exact ⟨_, rfl⟩
      · exact ⟨_, rfl⟩
    · rw [h2]; exact ⟨c, rfl⟩
  · rw [h1]; exact ⟨c, rfl⟩

/-- A run with a NaN in the second internal step. -/
def nanRun : StepRun :=
  ⟨.ok (), [.ok (), .error .nan, .ok ()], [], true, true, [.ok ()], 0⟩

example : step nanRun = .returns (-4) () := by decide

/-- Initialising a system whose stages raise no exceptions returns the code of the first
row. -/
theorem C43_init_ok (r : InitRun) (hc : ∀ s ∈ r.coupledPoints, s = .ok ())
    (hp : ∀ p ∈ r.points, p.free = true → p.seabed ≤ p.z)
    (hl : ∀ s ∈ r.lines, s = .ok ()) (hr : ∀ s ∈ r.relax, s = .ok ())
    (hw : r.waves = .ok ()) (hf : r.fileOpen = true) :
    init r = .returns r.firstRow () := by
  have hb : ∀ l : List (Except Exc Unit), (∀ s ∈ l, s = .ok ()) → bareSeq l = .ok () := by
    intro l
    induction l with
    | nil => intro _; rfl
    | cons s ss ih =>
      intro h
      have hs : s = .ok () := h s (by simp)
      subst hs
      exact ih (fun s hs => h s (by simp [hs]))
  have hpts : bareSeq (r.points.map PointStart.initialize) = .ok () := by
    apply hb
    intro s hs
    obtain ⟨p, hpm, rfl⟩ := List.mem_map.1 hs
    unfold PointStart.initialize
    rw [if_neg]
    rintro ⟨h1, h2⟩
    exact absurd (hp p hpm h1) (not_le.2 h2)
  have hsi : schemeInit r = .ok () := by
    unfold schemeInit
    rw [hpts]
    exact hb _ hl
  unfold init
  rw [stages_ok _ hc, hsi, stages_ok _ hr, stages_ok _ (by simpa using hw), hf]
  rfl

/-- Every system with a free point below the seabed terminates the program at
`MoorDyn_Init` (with any initial condition method): the exception leaves the C
function. -/
theorem C43_init_escapes (r : InitRun) (hc : ∀ s ∈ r.coupledPoints, s = .ok ())
    (p : PointStart) (hp : p ∈ r.points) (hfree : p.free = true) (hz : p.z < p.seabed) :
    init r = .escapes .value := by
  have key : ∀ l : List PointStart, p ∈ l →
      bareSeq (l.map PointStart.initialize) = .error .value := by
    intro l
    induction l with
    | nil => simp
    | cons a as ih =>
      intro hm
      simp only [List.map_cons, bareSeq]
      rcases Classical.em (a.free = true ∧ a.z < a.seabed) with h | h
      · have : a.initialize = .error .value := by simp [PointStart.initialize, h]
        rw [this]; rfl
      · have : a.initialize = .ok () := by simp only [PointStart.initialize]; rw [if_neg h]
        rw [this]
        rcases List.mem_cons.1 hm with rfl | hm
        · exact absurd ⟨hfree, hz⟩ h
        · exact ih hm
  have hsi : schemeInit r = .error .value := by
    unfold schemeInit
    rw [key _ hp]; rfl
  unfold init
  rw [stages_ok _ hc, hsi]

/-- Setting a log file that cannot be opened: the exception leaves the C function. -/
theorem C43_log_file_false :
    ¬ ∀ (opens : Bool), ∃ c, setLogFile (some ()) opens = .returns c () := by
  intro h
  obtain ⟨c, hc⟩ := h false
  simp [setLogFile, checked, bare] at hc

/-! ## C44: handles and indices -/

/-- Asking for object `i`: defined for every number; the handle is that of the `i`-th
object (from one), and null for zero, for larger numbers and for a null system. -/
theorem C44_object {O : Type} (objs : Option (List O)) (i : ℕ) :
    ∃ h, getObject objs i = some h ∧
      ∀ o, h = some o ↔ ∃ l, objs = some l ∧ 1 ≤ i ∧ l[i - 1]? = some o := by
  cases objs with
  | none => exact ⟨none, rfl, by simp⟩
  | some l =>
    by_cases hi : i = 0 ∨ l.length < i
    · refine ⟨none, by simp [getObject, hi], fun o => ?_⟩
      simp only [Option.some.injEq, exists_eq_left']
      constructor
      · intro h; cases h
      · rintro ⟨h1, h2⟩
        have := (List.getElem?_eq_some_iff.1 h2).1
        omega
    · push Not at hi
      have hlt : i - 1 < l.length := by omega
      refine ⟨some l[i - 1], by simp [getObject, hi.1, not_lt.2 hi.2, hlt], fun o => ?_⟩
      simp only [Option.some.injEq, exists_eq_left', List.getElem?_eq_getElem hlt]
      exact ⟨fun h => ⟨by omega, h⟩, fun h => h.2⟩

example : getObject (some ["a", "b"]) 2 = some (some "b") := by decide
example : getObject (some ["a", "b"]) 3 = some none := by decide

/-- Different numbers give different objects. -/
theorem C44_object_inj {O : Type} (l : List O) (hl : l.Nodup) (i j : ℕ) (o : O)
    (hi : getObject (some l) i = some (some o)) (hj : getObject (some l) j = some (some o)) :
    i = j := by
  obtain ⟨h1, e1, k1⟩ := C44_object (some l) i
  obtain ⟨h2, e2, k2⟩ := C44_object (some l) j
  rw [hi] at e1; rw [hj] at e2
  simp only [Option.some.injEq] at e1 e2
  obtain ⟨_, hh, a1, b1⟩ := (k1 o).1 e1.symm
  simp only [Option.some.injEq] at hh; subst hh
  obtain ⟨_, hh, a2, b2⟩ := (k2 o).1 e2.symm
  simp only [Option.some.injEq] at hh; subst hh
  obtain ⟨c1, d1⟩ := List.getElem?_eq_some_iff.1 b1
  obtain ⟨c2, d2⟩ := List.getElem?_eq_some_iff.1 b2
  have := (hl.getElem_inj_iff (hi := c1) (hj := c2)).1 (d1.trans d2.symm)
  omega

/-- The attachments of a point: defined for every index; success exactly for the indices
below the number of attachments, giving that attachment; otherwise the output arguments
are untouched. -/
theorem C44_attached {A : Type} (h : Option (List A)) (i : ℕ) (out : A) :
    (∃ a l, h = some l ∧ l[i]? = some a ∧ pointAttached h i out = .returns 0 a) ∨
    ((∀ l, h = some l → l.length ≤ i) ∧ pointAttached h i out = .returns (-6) out) := by
  cases h with
  | none => exact .inr ⟨by simp, rfl⟩
  | some l =>
    by_cases hi : l.length ≤ i
    · exact .inr ⟨by simpa using hi, by simp [pointAttached, checked, hi]⟩
    · have hlt : i < l.length := by omega
      exact .inl ⟨l[i], l, rfl, List.getElem?_eq_getElem hlt,
        by simp [pointAttached, checked, hi, hlt]⟩

/-- The value at a node (all the queries but the tension; also for rods): for every index,
exactly one of: the value stored for that node; the code for NaN if it is not a number;
the code for invalid values, with nothing changed, for a null handle or an index beyond
the last node.  No query reads outside the arrays. -/
theorem C44_node {V : Type} (isNan : V → Bool) (h : Option (LineMem V))
    (hs : ∀ l, h = some l → l.Sized) (i : ℕ) (out : V) :
    (∃ l v, h = some l ∧ i ≤ l.N ∧ l.nodal[i]? = some v ∧
      getNode isNan h i out =
        if isNan v = true then .returns (-4) out else .returns 0 v) ∨
    ((∀ l, h = some l → l.N < i) ∧ getNode isNan h i out = .returns (-6) out) := by
  cases h with
  | none => exact .inr ⟨by simp, rfl⟩
  | some l =>
    obtain ⟨h1, -, -⟩ := hs l rfl
    by_cases hi : l.N < i
    · exact .inr ⟨by simpa using hi, by simp [getNode, checked, nodeValue, hi, guarded, catcher]⟩
    · have hlt : i < l.nodal.length := by omega
      refine .inl ⟨l, l.nodal[i], rfl, by omega, List.getElem?_eq_getElem hlt, ?_⟩
      simp only [getNode, checked, nodeValue, hi, if_false, List.getElem?_eq_getElem hlt]
      split_ifs with hn <;> simp [guarded, catcher]

/-- The tension at a node of a line with at least one segment: at the ends that of the end
segment, inside the mean of the two segments; an error for any other index; never a read
outside the arrays. -/
theorem C44_node_tension {V : Type} [Add V] (half : V → V) (l : LineMem V) (hs : l.Sized)
    (hN : 1 ≤ l.N) (i : ℕ) (out : V) :
    (i ≤ l.N → ∃ v, getNodeTen half (some l) i out = .returns 0 v ∧
      ((i = 0 ∨ i = l.N) → ∃ t d, l.T[if i = 0 then 0 else l.N - 1]? = some t ∧
        l.Td[if i = 0 then 0 else l.N - 1]? = some d ∧ v = t + d) ∧
      (0 < i → i < l.N → ∃ t t' d d', l.T[i]? = some t ∧ l.T[i - 1]? = some t' ∧
        l.Td[i]? = some d ∧ l.Td[i - 1]? = some d' ∧ v = half (t + t' + d + d'))) ∧
    (l.N < i → getNodeTen half (some l) i out = .returns (-6) out) := by
  obtain ⟨-, hT, hD⟩ := hs
  constructor
  · intro hi
    by_cases h0 : i = 0
    · subst h0
      have a : 0 < l.T.length := by omega
      have b : 0 < l.Td.length := by omega
      refine ⟨l.T[0] + l.Td[0], ?_, ?_, by omega⟩
      · simp [getNodeTen, checked, nodeTen, List.getElem?_eq_getElem a,
          List.getElem?_eq_getElem b, guarded]
      · intro _
        exact ⟨_, _, by simp [List.getElem?_eq_getElem a],
          by simp [List.getElem?_eq_getElem b], rfl⟩
    · by_cases hn : i = l.N
      · subst hn
        have a : l.N - 1 < l.T.length := by omega
        have b : l.N - 1 < l.Td.length := by omega
        refine ⟨l.T[l.N - 1] + l.Td[l.N - 1], ?_, ?_, by omega⟩
        · simp [getNodeTen, checked, nodeTen, h0, List.getElem?_eq_getElem a,
            List.getElem?_eq_getElem b, guarded]
        · intro _
          exact ⟨_, _, by simp [h0, List.getElem?_eq_getElem a],
            by simp [h0, List.getElem?_eq_getElem b], rfl⟩
      · have a : i < l.T.length := by omega
        have b : i - 1 < l.T.length := by omega
        have c : i < l.Td.length := by omega
        have d : i - 1 < l.Td.length := by omega
        refine ⟨half (l.T[i] + l.T[i - 1] + l.Td[i] + l.Td[i - 1]), ?_, by omega, ?_⟩
        · simp [getNodeTen, checked, nodeTen, h0, hn, not_lt.2 hi, List.getElem?_eq_getElem a,
            List.getElem?_eq_getElem b, List.getElem?_eq_getElem c,
            List.getElem?_eq_getElem d, guarded]
        · intro _ _
          exact ⟨_, _, _, _, List.getElem?_eq_getElem a, List.getElem?_eq_getElem b,
            List.getElem?_eq_getElem c, List.getElem?_eq_getElem d, rfl⟩
  · intro hi
    simp [getNodeTen, checked, nodeTen, hi, guarded, catcher]

/-- A line of two segments. -/
def twoSeg : LineMem ℤ := ⟨2, [0, 1, 2], [10, 20], [1, 2]⟩

example : twoSeg.Sized ∧ getNodeTen (fun x => x / 2) (some twoSeg) 1 0 = .returns 0 16 := by
  refine ⟨by simp [LineMem.Sized, twoSeg], by decide⟩

/-- Full statement: no query of a node reads outside the arrays. -/
def NodeQueriesDefined : Prop :=
  ∀ (l : LineMem ℤ), l.Sized → ∀ i out, getNodeTen (fun x => x / 2) (some l) i out ≠ .undefined

/-- It fails for lines declared with zero segments, which the input file accepts: the
tension of their only node is read outside the (empty) arrays. -/
theorem C44_zero_segments_false : ¬ NodeQueriesDefined := by
  intro h
  exact h ⟨0, [0], [], []⟩ (by simp [LineMem.Sized]) 0 0 (by decide)

/-- Asking the tension of a line that does not exist with the legacy `GetFairTen` gives an
uninitialised value: the error is not reported. -/
theorem C44_legacy_fairten (ts : List ℚ) (l : ℤ) (hl : -2147483648 ≤ l ∧ l < 2147483648) :
    (legacyFairTen (some ts) l = none ↔ ¬ (1 ≤ l ∧ l ≤ ts.length)) ∨
      4294967296 - 2147483648 ≤ ts.length := by
  by_cases hbig : 4294967296 - 2147483648 ≤ ts.length
  · exact .inr hbig
  left
  obtain ⟨h, e, k⟩ := C44_object (some ts) (toUnsigned l)
  have hu : toUnsigned l = if 0 ≤ l then l.toNat else (l + 4294967296).toNat := by
    unfold toUnsigned
    split_ifs with h0
    · rw [Int.emod_eq_of_lt h0 (by omega)]
    · congr 1; omega
  simp only [legacyFairTen, e]
  cases h with
  | none =>
    simp only [true_iff]
    rintro ⟨h1, h2⟩
    rw [if_pos (by omega)] at hu
    have hlt : toUnsigned l - 1 < ts.length := by omega
    have := (k ts[toUnsigned l - 1]).2
      ⟨ts, rfl, by omega, List.getElem?_eq_getElem hlt⟩
    cases this
  | some t =>
    simp only [reduceCtorEq, false_iff, not_not]
    obtain ⟨_, hh, a, b⟩ := (k t).1 rfl
    simp only [Option.some.injEq] at hh; subst hh
    have := (List.getElem?_eq_some_iff.1 b).1
    split_ifs at hu <;> omega

/-- In particular line 0 of any system. -/
theorem C44_legacy_fairten_false :
    ¬ ∀ (ts : List ℚ) (l : ℤ), ∃ t, legacyFairTen (some ts) l = some t := by
  intro h
  obtain ⟨t, ht⟩ := h [] 0
  simp [legacyFairTen, getObject, toUnsigned] at ht

/-! ## C56: the arrays of tensions -/

theorem write_spec {F : Type} {a b : List F} {i : ℕ} {v : F} (h : write a i v = some b) :
    i < a.length ∧ b = a.set i v := by
  unfold write at h
  split_ifs at h with hi
  exact ⟨hi, by simpa using h.symm⟩

/-- An array `b` obtained from `a` by writing the values `val l` of the first `n` lines at
their positions and nothing else. -/
def Filled {F L : Type} (val : L → F) (lines : List L) (n : ℕ) (a b : List F) : Prop :=
  b.length = a.length ∧ ∀ j,
    (j < n → b[j]? = (lines[j]?).map val) ∧ (n ≤ j → b[j]? = a[j]?)

theorem fastLoop_spec {F L : Type} (tens : L → F × F × F × F) (lines : List L) :
    ∀ (n i : ℕ) (b : FastArrays F), i + n ≤ lines.length →
      i + n ≤ b.fairH.length → i + n ≤ b.fairV.length → i + n ≤ b.anchH.length →
      i + n ≤ b.anchV.length →
      ∃ b', fastLoop tens lines i n b = some b' ∧
        (b'.fairH.length = b.fairH.length ∧ b'.fairV.length = b.fairV.length ∧
          b'.anchH.length = b.anchH.length ∧ b'.anchV.length = b.anchV.length) ∧
        ∀ j, (i ≤ j ∧ j < i + n →
            b'.fairH[j]? = (lines[j]?).map (fun l => (tens l).1) ∧
            b'.fairV[j]? = (lines[j]?).map (fun l => (tens l).2.1) ∧
            b'.anchH[j]? = (lines[j]?).map (fun l => (tens l).2.2.1) ∧
            b'.anchV[j]? = (lines[j]?).map (fun l => (tens l).2.2.2)) ∧
          (j < i ∨ i + n ≤ j → b'.fairH[j]? = b.fairH[j]? ∧ b'.fairV[j]? = b.fairV[j]? ∧
            b'.anchH[j]? = b.anchH[j]? ∧ b'.anchV[j]? = b.anchV[j]?) := by
  intro n
  induction n with
  | zero =>
    intro i b _ _ _ _ _
    exact ⟨b, rfl, ⟨rfl, rfl, rfl, rfl⟩, fun j => ⟨fun h => by omega, fun _ => by simp⟩⟩
  | succ n ih =>
    intro i b hl h1 h2 h3 h4
    have hi : i < lines.length := by omega
    let b1 : FastArrays F :=
      ⟨b.fairH.set i (tens lines[i]).1, b.fairV.set i (tens lines[i]).2.1,
        b.anchH.set i (tens lines[i]).2.2.1, b.anchV.set i (tens lines[i]).2.2.2⟩
    have hb1 : fastLine tens lines i b = some b1 := by
      have a1 : i < b.fairH.length := by omega
      have a2 : i < b.fairV.length := by omega
      have a3 : i < b.anchH.length := by omega
      have a4 : i < b.anchV.length := by omega
      simp [fastLine, List.getElem?_eq_getElem hi, write, a1, a2, a3, a4, b1]
    obtain ⟨b', hb', ⟨e1, e2, e3, e4⟩, hj⟩ := ih (i + 1) b1 (by omega)
      (by simp [b1]; omega) (by simp [b1]; omega) (by simp [b1]; omega) (by simp [b1]; omega)
    refine ⟨b', by simp [fastLoop, hb1, hb'], ⟨by simp [e1, b1], by simp [e2, b1],
      by simp [e3, b1], by simp [e4, b1]⟩, fun j => ⟨fun hij => ?_, fun hij => ?_⟩⟩
    · by_cases hji : j = i
      · subst hji
        obtain ⟨q1, q2, q3, q4⟩ := (hj j).2 (by omega)
        rw [q1, q2, q3, q4]
        have a1 : j < b.fairH.length := by omega
        have a2 : j < b.fairV.length := by omega
        have a3 : j < b.anchH.length := by omega
        have a4 : j < b.anchV.length := by omega
        simp [b1, List.getElem?_eq_getElem hi, List.getElem?_set, a1, a2, a3, a4]
      · exact (hj j).1 (by omega)
    · obtain ⟨q1, q2, q3, q4⟩ := (hj j).2 (by omega)
      rw [q1, q2, q3, q4]
      have hne : ¬ i = j := by omega
      simp [b1, List.getElem?_set, hne]

/-- `MoorDyn_GetFASTtens` for up to all the lines and arrays that are large enough: the
four tensions of line `i` are written at position `i` of the arrays, for the lines asked
for, and nothing else is written. -/
theorem C56_layout {F L : Type} (tens : L → F × F × F × F) (lines : List L) (n : ℕ)
    (hn : n ≤ lines.length) (hint : n < 2147483648) (b : FastArrays F)
    (h1 : n ≤ b.fairH.length) (h2 : n ≤ b.fairV.length) (h3 : n ≤ b.anchH.length)
    (h4 : n ≤ b.anchV.length) :
    ∃ b', getFASTtens tens (some lines) n b = .returns 0 b' ∧
      Filled (fun l => (tens l).1) lines n b.fairH b'.fairH ∧
      Filled (fun l => (tens l).2.1) lines n b.fairV b'.fairV ∧
      Filled (fun l => (tens l).2.2.1) lines n b.anchH b'.anchH ∧
      Filled (fun l => (tens l).2.2.2) lines n b.anchV b'.anchV := by
  obtain ⟨b', hb', ⟨e1, e2, e3, e4⟩, hj⟩ := fastLoop_spec tens lines n 0 b (by omega)
    (by omega) (by omega) (by omega) (by omega)
  have hu : toUnsigned (n : ℤ) = n := by
    unfold toUnsigned
    rw [Int.emod_eq_of_lt (by omega) (by omega)]
    simp
  refine ⟨b', ?_, ⟨e1, fun j => ⟨fun h => ((hj j).1 (by omega)).1, fun h => ((hj j).2 (by omega)).1⟩⟩,
    ⟨e2, fun j => ⟨fun h => ((hj j).1 (by omega)).2.1, fun h => ((hj j).2 (by omega)).2.1⟩⟩,
    ⟨e3, fun j => ⟨fun h => ((hj j).1 (by omega)).2.2.1, fun h => ((hj j).2 (by omega)).2.2.1⟩⟩,
    ⟨e4, fun j => ⟨fun h => ((hj j).1 (by omega)).2.2.2, fun h => ((hj j).2 (by omega)).2.2.2⟩⟩⟩
  simp only [getFASTtens, checked, hu, Int.toNat_natCast, hb']
  rw [if_neg (by omega)]

/-- Asking for more lines than there are, or for a negative number of them: the code for
invalid values, and the arrays are untouched. -/
theorem C56_too_many {F L : Type} (tens : L → F × F × F × F) (lines : List L) (n : ℤ)
    (hint : -2147483648 ≤ n ∧ n < 2147483648) (hbad : n < 0 ∨ lines.length < n)
    (hl : lines.length < 2147483648) (b : FastArrays F) :
    getFASTtens tens (some lines) n b = .returns (-6) b := by
  have : lines.length < toUnsigned n := by
    unfold toUnsigned
    rcases hbad with h | h
    · have : n % 4294967296 = n + 4294967296 := by omega
      rw [this]; omega
    · rw [Int.emod_eq_of_lt (by omega) (by omega)]; omega
  simp [getFASTtens, checked, this]

/-- A null system. -/
theorem C56_null {F L : Type} (tens : L → F × F × F × F) (n : ℤ) (b : FastArrays F) :
    getFASTtens tens none n b = .returns (-6) b := rfl

example : getFASTtens (fun l : ℕ => (l, l + 1, l + 2, l + 3)) (some [10, 20, 30]) 2
    ⟨[0, 0, 0], [0, 0], [0, 0], [0, 0, 7]⟩ =
    .returns 0 ⟨[10, 20, 0], [11, 21], [12, 22], [13, 23, 7]⟩ := by decide

/-! ## C45: the legacy interface -/

/-- Specification: what the user of the legacy interface should see, with only the memory
of whether there is a usable system. -/
def specCall (ready : Bool) : Op → ℤ × Bool
  | .init true 0 => (0, true)
  | .init true code => (code, ready)
  | .init false _ => (-255, ready)
  | .step code => if ready then (code, true) else (-6, false)
  | .close => if ready then (0, false) else (-6, false)

def specRun (ready : Bool) : List Op → List ℤ × Bool
  | [] => ([], ready)
  | op :: ops =>
    let (c, r) := specCall ready op
    let (cs, r) := specRun r ops
    (c :: cs, r)

theorem call_refines (s : Legacy) (op : Op) :
    ((s.call op).1, (s.call op).2.singleton.isSome) = specCall s.singleton.isSome op := by
  cases op with
  | init created code =>
    cases created with
    | false => simp [Legacy.call, specCall]
    | true =>
      by_cases h : code = 0
      · subst h; simp [Legacy.call, specCall]
      · simp only [Legacy.call, if_true]
        rw [if_pos h]
        unfold specCall
        split <;> simp_all
  | step code => cases hs : s.singleton <;> simp [Legacy.call, specCall, hs]
  | close => cases hs : s.singleton <;> simp [Legacy.call, specCall, hs]

/-- For every sequence of legacy calls the codes returned are those of the specification:
a step or a close without a successful initialisation before (since the last close)
reports an error; an initialisation that fails leaves the previous system in use; after a
successful close the interface is uninitialised. -/
theorem C45_codes (s : Legacy) (ops : List Op) :
    ((s.run ops).1, (s.run ops).2.singleton.isSome) = specRun s.singleton.isSome ops := by
  induction ops generalizing s with
  | nil => rfl
  | cons op ops ih =>
    have h1 := call_refines s op
    have h2 := ih (s.call op).2
    simp only [Prod.ext_iff] at h1 h2
    simp only [Legacy.run, specRun, ← h1.1, ← h1.2, ← h2.1, ← h2.2]

/-- An initialisation that fails keeps the very same instance in use. -/
theorem C45_failed_init (s : Legacy) (created : Bool) (code : ℤ)
    (h : created = false ∨ code ≠ 0) :
    (s.call (.init created code)).1 ≠ 0 ∧
    (s.call (.init created code)).2.singleton = s.singleton := by
  cases created with
  | false => simp [Legacy.call]
  | true =>
    have h : code ≠ 0 := by simpa using h
    simp [Legacy.call, h]

/-- States that calls can reach: the instance in use exists, instances are numbered in
order. -/
def Legacy.Inv (s : Legacy) : Prop :=
  s.alive.Nodup ∧ (∀ i ∈ s.alive, i < s.next) ∧ ∀ i, s.singleton = some i → i ∈ s.alive

theorem inv_start : Legacy.start.Inv := by simp [Legacy.Inv, Legacy.start]

theorem inv_call (s : Legacy) (h : s.Inv) (op : Op) : (s.call op).2.Inv := by
  obtain ⟨h1, h2, h3⟩ := h
  have hfresh : s.next ∉ s.alive := fun hm => lt_irrefl _ (h2 _ hm)
  cases op with
  | init created code =>
    cases created with
    | false => exact ⟨h1, h2, h3⟩
    | true =>
      by_cases hc : code = 0
      · subst hc
        simp only [Legacy.call, if_true, ne_eq, not_true_eq_false, if_false]
        cases hs : s.singleton with
        | none =>
          refine ⟨?_, ?_, ?_⟩
          · simp [hfresh, h1]
          · intro i hi
            simp only [List.mem_cons] at hi
            rcases hi with rfl | hi
            · simp
            · have := h2 i hi; simp; omega
          · intro i hi; simp at hi; subst hi; simp
        | some old =>
          have hold := h3 old hs
          have hne : s.next ≠ old := fun h => hfresh (h ▸ hold)
          refine ⟨?_, ?_, ?_⟩
          · exact List.Nodup.erase _ (by simp [hfresh, h1])
          · intro i hi
            have hi := List.mem_of_mem_erase hi
            simp only [List.mem_cons] at hi
            rcases hi with rfl | hi
            · simp [Legacy.delete]
            · have := h2 i hi; simp [Legacy.delete]; omega
          · intro i hi
            simp at hi
            subst hi
            simp only [Legacy.delete]
            exact (List.mem_erase_of_ne hne).2 (by simp)
      · simp only [Legacy.call, if_true, ne_eq, hc, not_false_eq_true]
        refine ⟨by simp [hfresh, h1], ?_, fun i hi => by
          simp only [List.mem_cons]; exact .inr (h3 i hi)⟩
        intro i hi
        simp only [List.mem_cons] at hi
        rcases hi with rfl | hi
        · simp
        · have := h2 i hi; simp; omega
  | step code =>
    cases hs : s.singleton with
    | none => simp only [Legacy.call, hs]; exact ⟨h1, h2, by rw [hs]; simp⟩
    | some i =>
      simp only [Legacy.call, hs]
      exact ⟨h1, h2, fun j hj => h3 j (by rw [hs] at hj ⊢; exact hj)⟩
  | close =>
    cases hs : s.singleton with
    | none => simp only [Legacy.call, hs]; exact ⟨h1, h2, by rw [hs]; simp⟩
    | some i =>
      simp only [Legacy.call, hs, Legacy.delete]
      exact ⟨h1.erase _, fun j hj => h2 j (List.mem_of_mem_erase hj), by simp⟩

theorem inv_run (s : Legacy) (h : s.Inv) (ops : List Op) : (s.run ops).2.Inv := by
  induction ops generalizing s with
  | nil => exact h
  | cons op ops ih => exact ih _ (inv_call s h op)

/-- The instance in use is never one that was destroyed, after any calls. -/
theorem C45_never_dangling (ops : List Op) (i : ℕ)
    (h : (Legacy.start.run ops).2.singleton = some i) :
    i ∈ (Legacy.start.run ops).2.alive :=
  (inv_run _ inv_start ops).2.2 i h

/-- The initialisations of a sequence that create a system and then fail. -/
def leaks (ops : List Op) : ℕ :=
  ops.countP fun op => match op with | .init true code => code ≠ 0 | _ => false

theorem alive_count (s : Legacy) (h : s.Inv) (ops : List Op) :
    (s.run ops).2.alive.length + (if s.singleton.isSome then 1 else 0) =
      s.alive.length + leaks ops + (if (s.run ops).2.singleton.isSome then 1 else 0) := by
  induction ops generalizing s with
  | nil =>
    show s.alive.length + _ = s.alive.length + 0 + _
    rw [Nat.add_zero]; rfl
  | cons op ops ih =>
    have h' := ih _ (inv_call s h op)
    have key : (s.call op).2.alive.length + (if s.singleton.isSome then 1 else 0) =
        s.alive.length + leaks [op] + (if (s.call op).2.singleton.isSome then 1 else 0) := by
      obtain ⟨h1, h2, h3⟩ := h
      cases op with
      | init created code =>
        cases created with
        | false => simp [Legacy.call, leaks]
        | true =>
          by_cases hc : code = 0
          · subst hc
            cases hs : s.singleton with
            | none => simp [Legacy.call, leaks, hs]
            | some old =>
              have hold := h3 old hs
              have : old ∈ s.next :: s.alive := List.mem_cons_of_mem _ hold
              simp [Legacy.call, leaks, hs, Legacy.delete, List.length_erase_of_mem this]
          · cases hs : s.singleton <;> simp [Legacy.call, leaks, hs, hc]
      | step code => cases hs : s.singleton <;> simp [Legacy.call, leaks, hs]
      | close =>
        cases hs : s.singleton with
        | none => simp [Legacy.call, leaks, hs]
        | some i =>
          have hi := h3 i hs
          have : 0 < s.alive.length := List.length_pos_of_mem hi
          simp [Legacy.call, leaks, hs, Legacy.delete, List.length_erase_of_mem hi]
          omega
    have hl : leaks (op :: ops) = leaks [op] + leaks ops := by
      unfold leaks
      rw [← List.countP_append]; rfl
    rw [hl]
    have e : (s.run (op :: ops)).2 = ((s.call op).2.run ops).2 := rfl
    rw [e]
    omega

/-- After any sequence of legacy calls the number of instances that exist is the one in
use, if any, plus one for each initialisation that created a system and then failed. -/
theorem C45_instances_partial (ops : List Op) :
    (Legacy.start.run ops).2.alive.length =
      leaks ops + (if (Legacy.start.run ops).2.singleton.isSome then 1 else 0) := by
  have := alive_count _ inv_start ops
  simpa [Legacy.start] using this

/-- Without such initialisations at most one instance is alive, and none when the
interface is uninitialised. -/
theorem C45_at_most_one_partial (ops : List Op) (h : leaks ops = 0) :
    (Legacy.start.run ops).2.alive.length ≤ 1 ∧
    ((Legacy.start.run ops).2.singleton = none → (Legacy.start.run ops).2.alive = []) := by
  have := C45_instances_partial ops
  rw [h] at this
  constructor
  · split_ifs at this <;> omega
  · intro hn
    rw [hn] at this
    simpa using this

/-- Initialising again is no leak. -/
example : leaks [.init true 0, .step 0, .init true 0, .step (-4), .close] = 0 ∧
    (Legacy.start.run [.init true 0, .step 0, .init true 0, .step (-4), .close]).1 =
      [0, 0, 0, -4, 0] := by decide

/-- "At most one instance is alive" is false: a failed initialisation leaves its instance
alive. -/
theorem C45_at_most_one_false :
    ¬ ∀ ops, (Legacy.start.run ops).2.alive.length ≤ 1 := by
  intro h
  exact absurd (h [.init true 0, .init true (-6)]) (by decide)

/-- And for good: an instance that exists but is not in use (as after a failed
initialisation) survives every later sequence of calls, closing included. -/
theorem C45_leak_is_permanent (s : Legacy) (h : s.Inv) (i : ℕ) (hi : i ∈ s.alive)
    (hn : s.singleton ≠ some i) (ops : List Op) :
    i ∈ (s.run ops).2.alive ∧ (s.run ops).2.singleton ≠ some i := by
  induction ops generalizing s with
  | nil => exact ⟨hi, hn⟩
  | cons op ops ih =>
    have hlt := h.2.1 i hi
    refine ih _ (inv_call s h op) ?_ ?_
    · cases op with
      | init created code =>
        cases created with
        | false => exact hi
        | true =>
          by_cases hc : code = 0
          · subst hc
            cases hs : s.singleton with
            | none => simp [Legacy.call, hs, hi]
            | some old =>
              have : i ≠ old := fun h => hn (by rw [hs, h])
              simp only [Legacy.call, hs, if_true, ne_eq, not_true_eq_false, if_false,
                Legacy.delete]
              exact (List.mem_erase_of_ne this).2 (by simp [hi])
          · simp [Legacy.call, hc, hi]
      | step code => cases hs : s.singleton <;> simp [Legacy.call, hs, hi]
      | close =>
        cases hs : s.singleton with
        | none => simp [Legacy.call, hs, hi]
        | some old =>
          have : i ≠ old := fun h => hn (by rw [hs, h])
          simp only [Legacy.call, hs, Legacy.delete]
          exact (List.mem_erase_of_ne this).2 hi
    · cases op with
      | init created code =>
        cases created with
        | false => exact hn
        | true =>
          by_cases hc : code = 0
          · subst hc
            have : s.next ≠ i := by omega
            cases hs : s.singleton <;> simp [Legacy.call, hs, this]
          · simpa [Legacy.call, hc] using hn
      | step code => cases hs : s.singleton <;> simp_all [Legacy.call]
      | close => cases hs : s.singleton <;> simp_all [Legacy.call]

end MD.Api
