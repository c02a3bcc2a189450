import Verif.Spec.Matlab
import Mathlib.Tactic.Linarith
import Mathlib.Data.Rat.Lemmas

/-!
# C116: the MATLAB functions
-/

set_option linter.unusedSimpArgs false

namespace MD.Matlab

/-- The arguments of a call whose inputs come in the order of the parameters. -/
def number (k : ℕ) : List Par → List Src
  | [] => []
  | .hdl :: ps => (if k = 0 then .inst else .hdl k) :: number (k + 1) ps
  | .nat :: ps => .nat k :: number (k + 1) ps
  | .int :: ps => .int k :: number (k + 1) ps
  | .dbl :: ps => .dbl k :: number (k + 1) ps
  | .io :: ps => .ref k :: number (k + 1) ps
  | .vec :: ps => .vec k :: number (k + 1) ps
  | .chars :: ps => .chars k :: number (k + 1) ps
  | .out n :: ps => .room n :: number k ps
  | .like i :: ps => .like i :: number k ps

/-- The number of inputs. -/
def inputsOf : List Par → ℕ
  | [] => 0
  | .out _ :: ps => inputsOf ps
  | .like _ :: ps => inputsOf ps
  | _ :: ps => inputsOf ps + 1

theorem Hands.length {all : List Arr} {ps : List Par} {is : List Arr} {as : List Arg}
    (h : Hands all ps is as) : is.length = inputsOf ps := by
  induction h <;> simp_all [inputsOf]

theorem whole_tdiv (i : ℤ) : ((i : ℚ).num.tdiv ((i : ℚ).den : ℤ)) = i := by
  simp

theorem Hands.read {c : Conv} {all : List Arr} {ps : List Par} {is : List Arr} {as : List Arg}
    (h : Hands all ps is as) (k : ℕ) (hk : ∀ j, is[j]? = all[k + j]?) :
    readAll c all (number k ps) = .ok as := by
  induction h generalizing k with
  | nil => rfl
  | hdl h v r ih =>
    have h0 := hk 0
    have := ih (k + 1) fun j => by have := hk (j + 1); simpa [Nat.add_assoc, Nat.add_comm 1] using this
    simp only [List.getElem?_cons_zero, Nat.add_zero] at h0
    by_cases hz : k = 0
    · subst hz
      simp [number, readAll, Matlab.read, readHandle, ← h0, Rd.bind, this]
    · simp [number, hz, readAll, Matlab.read, readHandle, ← h0, Rd.bind, this]
  | nat n v hn r ih =>
    have h0 := hk 0
    have := ih (k + 1) fun j => by have := hk (j + 1); simpa [Nat.add_assoc, Nat.add_comm 1] using this
    simp only [List.getElem?_cons_zero, Nat.add_zero] at h0
    have hn' : 0 ≤ (n : ℤ) ∧ (n : ℤ) < 2 ^ 32 := ⟨Int.natCast_nonneg n, by exact_mod_cast hn⟩
    have hw : ((n : ℚ).num.tdiv ((n : ℚ).den : ℤ)) = n := by simp
    simp only [number, readAll, Matlab.read, readNat, readNum, ← h0, Rd.bind, this, hw, if_pos hn']
  | int i v hi r ih =>
    have h0 := hk 0
    have := ih (k + 1) fun j => by have := hk (j + 1); simpa [Nat.add_assoc, Nat.add_comm 1] using this
    simp only [List.getElem?_cons_zero, Nat.add_zero] at h0
    simp only [number, readAll, Matlab.read, readInt, readNum, ← h0, Rd.bind, this, whole_tdiv, if_pos hi]
  | dbl x v r ih =>
    have h0 := hk 0
    have := ih (k + 1) fun j => by have := hk (j + 1); simpa [Nat.add_assoc, Nat.add_comm 1] using this
    simp only [List.getElem?_cons_zero, Nat.add_zero] at h0
    simp [number, readAll, Matlab.read, readNum, ← h0, Rd.bind, this]
  | io x v r ih =>
    have h0 := hk 0
    have := ih (k + 1) fun j => by have := hk (j + 1); simpa [Nat.add_assoc, Nat.add_comm 1] using this
    simp only [List.getElem?_cons_zero, Nat.add_zero] at h0
    simp [number, readAll, Matlab.read, readNum, ← h0, Rd.bind, this]
  | vec v r ih =>
    have h0 := hk 0
    have := ih (k + 1) fun j => by have := hk (j + 1); simpa [Nat.add_assoc, Nat.add_comm 1] using this
    simp only [List.getElem?_cons_zero, Nat.add_zero] at h0
    simp [number, readAll, Matlab.read, readVec, ← h0, Rd.bind, this]
  | chars s r ih =>
    have h0 := hk 0
    have := ih (k + 1) fun j => by have := hk (j + 1); simpa [Nat.add_assoc, Nat.add_comm 1] using this
    simp only [List.getElem?_cons_zero, Nat.add_zero] at h0
    simp [number, readAll, Matlab.read, readChars, ← h0, Rd.bind, this]
  | out n r ih => simp [number, readAll, Matlab.read, Rd.bind, ih k hk]
  | like i v hv r ih => simp [number, readAll, Matlab.read, readVec, hv, Rd.bind, ih k hk]

/-- The table: every function but eight hands its inputs over in the order of the parameters. -/
theorem in_order : ∀ f ∈ wrappers, f.name ∉ unusable → ∃ p ∈ protos, p.name = f.calls ∧
    p.pars.head? = some .hdl ∧ f.args = number 0 p.pars ∧ f.nIn = inputsOf p.pars := by decide +kernel

/-- C116: a MATLAB function other than the eight named in `unusable`, called with the inputs its C function
reads, in order, and with the outputs it has, calls the C function exactly once, with the inputs as they are
and with places of the sizes of the prototype for what is written.  If that fails the call ends in an error;
otherwise it returns the outputs.  The state of the library is what the C function leaves. -/
theorem C116_call (f : Fn) (hf : f ∈ wrappers) (hu : f.name ∉ unusable) :
    ∃ p ∈ protos, p.name = f.calls ∧ ∀ (σ : Type) (c : Conv) (lib : Lib σ) (ins : List Arr)
      (args : List Arg) (s : σ), Hands ins p.pars ins args →
      (run c lib f ins f.nOut s).2 = (lib f.calls args s).2 ∧
      (Failed f.ending (lib f.calls args s).1 → ∃ e, (run c lib f ins f.nOut s).1 = .error e) ∧
      (¬ Failed f.ending (lib f.calls args s).1 →
        (run c lib f ins f.nOut s).1 = .ok (f.outs.map (give (lib f.calls args s).1))) := by
  obtain ⟨p, hp, hn, h0, ha, hi⟩ := in_order f hf hu
  refine ⟨p, hp, hn, ?_⟩
  intro σ c lib ins args s hh
  have hl := hh.length
  have hr : readAll c ins f.args = .ok args := ha ▸ hh.read 0 fun j => by simp
  have hd : ∃ h, readHandle c ins[0]? = .ok h := by
    cases hps : p.pars with
    | nil => rw [hps] at h0; simp at h0
    | cons q qs =>
      rw [hps] at h0 hh
      obtain rfl : q = .hdl := by simpa using h0
      cases hh with
      | hdl h v r => exact ⟨h, by simp [readHandle]⟩
  obtain ⟨h, hd⟩ := hd
  have hrun : run c lib f ins f.nOut s =
      ((judge f.ending (lib f.calls args s).1).elim (.ok (f.outs.map (give (lib f.calls args s).1))) .error,
        (lib f.calls args s).2) := by
    simp only [run, hl, hi, ne_eq, not_true_eq_false, if_false, hd, Rd.bind, hr]
  rw [hrun]
  refine ⟨rfl, ?_, ?_⟩
  · intro hF
    cases he : f.ending <;> rw [he] at hF <;> simp only [Failed] at hF
    · exact ⟨.code (lib f.calls args s).1.code, by simp only [judge, if_neg hF, Option.elim]⟩
    · exact ⟨.null, by simp only [judge, if_pos hF, Option.elim]⟩
  · intro hF
    cases he : f.ending <;> rw [he] at hF <;> simp only [Failed, ne_eq, not_not] at hF
    · simp only [judge, if_pos hF, Option.elim]
    · simp only [judge, if_neg hF, Option.elim]
    · simp only [judge, Option.elim]

/-- C116: what is returned is the address the C function returns, or the parameters written, in order and
whole; the step returns the time and the forces. -/
theorem C116_outputs (f : Fn) (hf : f ∈ wrappers) : ∃ p ∈ protos, p.name = f.calls ∧
    f.outs.length = f.nOut ∧
    (f.ending ≠ .code → f.outs = [.ret]) ∧
    (f.ending = .code → f.name ≠ "MoorDynM_Step" → Returned (written 0 p.pars) f.outs) ∧
    (f.name = "MoorDynM_Step" → f.outs = [.scal 4, .row 3]) := by
  have : ∀ f ∈ wrappers, ∃ p ∈ protos, p.name = f.calls ∧ f.outs.length = f.nOut ∧
    (f.ending ≠ .code → f.outs = [.ret]) ∧
    (f.ending = .code → f.name ≠ "MoorDynM_Step" → Returned (written 0 p.pars) f.outs) ∧
    (f.name = "MoorDynM_Step" → f.outs = [.scal 4, .row 3]) := by decide +kernel
  exact this f hf

/-- The C function a MATLAB function is named after. -/
def called (name : String) : String := "MoorDyn_" ++ String.ofList (name.toList.drop 9)

/-- C116: every function calls the C function of its name, but for two that have an old or misspelt name. -/
theorem C116_named (f : Fn) (hf : f ∈ wrappers) : f.calls = called f.name ∨
    (f.name = "MoorDynM_SaveConnectVTK" ∧ f.calls = "MoorDyn_SavePointVTK") ∨
    (f.name = "MoorDynM_GetLineUnstrechedLength" ∧ f.calls = "MoorDyn_GetLineUnstretchedLength") := by
  have : ∀ f ∈ wrappers, f.calls = called f.name ∨
    (f.name = "MoorDynM_SaveConnectVTK" ∧ f.calls = "MoorDyn_SavePointVTK") ∨
    (f.name = "MoorDynM_GetLineUnstrechedLength" ∧ f.calls = "MoorDyn_GetLineUnstretchedLength") := by
    decide +kernel
  exact this f hf

/-- C116: with another number of inputs or outputs nothing is called, and the error says how many there should be; likewise for the two functions
that are not in the table. -/
theorem C116_counted {σ : Type} (c : Conv) (lib : Lib σ) (f : Fn) (ins : List Arr) (n : ℕ) (s : σ) :
    (ins.length ≠ f.nIn → run c lib f ins n s = (.error (.inputs f.nIn), s)) ∧
    (ins.length = f.nIn → n ≠ f.nOut → run c lib f ins n s = (.error (.outputs f.nOut), s)) ∧
    ((∀ file, ins ≠ [.chars file]) → create lib ins n s = (.error (.inputs 1), s)) ∧
    (∀ file, ins = [.chars file] → n ≠ 1 → create lib ins n s = (.error (.outputs 1), s)) ∧
    (ins.length ≠ 1 → coordinates c lib ins n s = (.error (.inputs 1), s)) ∧
    (ins.length = 1 → n ≠ 1 → coordinates c lib ins n s = (.error (.outputs 1), s)) := by
  refine ⟨fun h => ?_, fun h h' => ?_, fun h => ?_, fun file h h' => ?_, fun h => ?_, fun h h' => ?_⟩
  · unfold run
    rw [if_pos h]
  · unfold run
    rw [if_neg (not_not.2 h), if_pos h']
  · unfold create
    split
    · exact absurd rfl (h _)
    · rfl
  · subst h
    show (if n ≠ 1 then _ else _) = _
    rw [if_pos h']
  · unfold coordinates
    rw [if_pos h]
  · unfold coordinates
    rw [if_neg (not_not.2 h), if_pos h']

/-- C116 in short. -/
theorem counted_short {σ : Type} (c : Conv) (lib : Lib σ) (f : Fn) (ins : List Arr) (n : ℕ) (s : σ)
    (h : ins.length ≠ f.nIn ∨ n ≠ f.nOut) :
    (run c lib f ins n s).2 = s ∧ ∃ e, (run c lib f ins n s).1 = .error e := by
  have hc := C116_counted c lib f ins n s
  by_cases hi : ins.length ≠ f.nIn
  · rw [hc.1 hi]; exact ⟨rfl, _, rfl⟩
  · rw [hc.2.1 (not_not.1 hi) (h.resolve_left hi)]; exact ⟨rfl, _, rfl⟩

theorem names_first : ∀ f ∈ wrappers, f.name ∈ unusable → f.args = [.inst, .chars 0] ∧ f.nIn = 2 := by
  decide +kernel

/-- C116, false: the eight functions that take the name of a file (`MoorDynM_Save`, `MoorDynM_Load`, ...) look
for the name in the input that is the handle.  Given a handle they end in an error, whatever the name, and the
library is not called. -/
theorem C116_file_name_false {σ : Type} (c : Conv) (lib : Lib σ) (f : Fn) (hf : f ∈ wrappers)
    (hu : f.name ∈ unusable) (h : List ℕ) (rest : List Arr) (n : ℕ) (s : σ) :
    (run c lib f (.u64 h :: rest) n s).2 = s ∧ ∃ e, (run c lib f (.u64 h :: rest) n s).1 = .error e := by
  obtain ⟨ha, -⟩ := names_first f hf hu
  by_cases hc : (Arr.u64 h :: rest).length ≠ f.nIn ∨ n ≠ f.nOut
  · exact counted_short c lib f _ n s hc
  · rw [not_or, not_not, not_not] at hc
    obtain ⟨h1, h2⟩ := hc
    unfold run
    rw [if_neg (not_not.2 h1), if_neg (not_not.2 h2), ha]
    cases h with
    | nil => exact ⟨rfl, _, rfl⟩
    | cons a v => exact ⟨rfl, _, rfl⟩

/-- C116, false: nor is there another way to call them.  Whatever the inputs, if the library is called then the
first input are characters, and the handle is made of these. -/
theorem C116_no_way_false {σ : Type} (c : Conv) (lib : Lib σ) (f : Fn) (hf : f ∈ wrappers)
    (hu : f.name ∈ unusable) (ins : List Arr) (n : ℕ) (s : σ) (hs : (run c lib f ins n s).2 ≠ s) :
    ∃ t a, ins[0]? = some (.chars t) ∧ c.handle (.chars t) = some a ∧
      (run c lib f ins n s).2 = (lib f.calls [.addr a, .text t] s).2 := by
  obtain ⟨ha, hi⟩ := names_first f hf hu
  by_cases hc : ins.length ≠ f.nIn ∨ n ≠ f.nOut
  · exact absurd (counted_short c lib f _ n s hc).1 hs
  rw [not_or, not_not, not_not] at hc
  obtain ⟨h1, h2⟩ := hc
  match ins, h1, hs with
  | [], h1, _ => rw [hi] at h1; simp at h1
  | .u64 v :: rest, h1, hs => exact absurd (C116_file_name_false c lib f hf hu v rest n s).1 hs
  | .nums v :: rest, h1, hs =>
    refine absurd ?_ hs
    unfold run
    rw [if_neg (not_not.2 h1), if_neg (not_not.2 h2), ha]
    cases hh : c.handle (.nums v) <;> simp [readHandle, hh, Rd.bind, readAll, read, readChars]
  | .chars t :: rest, h1, hs =>
    cases hh : c.handle (.chars t) with
    | none =>
      refine absurd ?_ hs
      unfold run
      rw [if_neg (not_not.2 h1), if_neg (not_not.2 h2), ha]
      simp [readHandle, hh, Rd.bind]
    | some a =>
      refine ⟨t, a, rfl, hh, ?_⟩
      unfold run
      rw [if_neg (not_not.2 h1), if_neg (not_not.2 h2), ha]
      simp [readHandle, hh, Rd.bind, readAll, read, readChars]

/-- C116: matrices (of masses) are returned with rows and columns exchanged, which is no change for a symmetric
one. -/
theorem C116_matrix (n : ℕ) (v : List ℚ) (i j : ℕ) :
    columns n v i j = rows n v j i ∧
    ((∀ i j, i < n → j < n → rows n v i j = rows n v j i) → i < n → j < n →
      columns n v i j = rows n v i j) := by
  have h : columns n v i j = rows n v j i := by unfold columns rows; rw [Nat.add_comm]
  exact ⟨h, fun hs hi hj => h.trans (hs j i hj hi)⟩

/-- C116, false: any other matrix is returned changed. -/
theorem C116_matrix_false (n : ℕ) (v : List ℚ) (h : ∃ i j, rows n v i j ≠ rows n v j i) :
    ∃ i j, columns n v i j ≠ rows n v i j := by
  obtain ⟨i, j, hij⟩ := h
  exact ⟨j, i, fun he => hij ((C116_matrix n v j i).1.symm.trans he)⟩

/-- C116: a system is created from one text; the handle returned is the address the library returns, if there
is one. -/
theorem C116_create {σ : Type} (lib : Lib σ) (file : String) (s : σ) :
    (create lib [.chars file] 1 s).2 = (lib "MoorDyn_Create" [.text file] s).2 ∧
    ((lib "MoorDyn_Create" [.text file] s).1.ptr ≠ 0 →
      (create lib [.chars file] 1 s).1 = .ok [.handle (lib "MoorDyn_Create" [.text file] s).1.ptr]) ∧
    ((lib "MoorDyn_Create" [.text file] s).1.ptr = 0 → ∃ e, (create lib [.chars file] 1 s).1 = .error e) := by
  refine ⟨rfl, fun h => ?_, fun h => ⟨.null, ?_⟩⟩
  · show (judge _ _).elim _ _ = _
    simp only [judge, if_neg h, Option.elim]
  · show (judge _ _).elim _ _ = _
    simp only [judge, if_pos h, Option.elim]

/-- C116: the coordinates of the points where the kinematics of the waves are wanted are asked for with a
place for three numbers per point, the number of points being the one the library says. -/
theorem C116_coordinates {σ : Type} (c : Conv) (lib : Lib σ) (h : ℕ) (v : List ℕ) (s s' s'' : σ) (n : ℕ)
    (r q : Ret) (hr : lib "MoorDyn_ExternalWaveKinGetN" [.addr h, .room 1] s = (r, s')) (hc : r.code = 0)
    (hn : r.after 1 = [(n : ℚ)])
    (hq : lib "MoorDyn_ExternalWaveKinGetCoordinates" [.addr h, .room (3 * n)] s' = (q, s'')) :
    (coordinates c lib [.u64 (h :: v)] 1 s).2 = s'' ∧
    (q.code = 0 → (coordinates c lib [.u64 (h :: v)] 1 s).1 = .ok [.row (q.after 1)]) ∧
    (q.code ≠ 0 → (coordinates c lib [.u64 (h :: v)] 1 s).1 = .error (.code q.code)) := by
  have he : coordinates c lib [.u64 (h :: v)] 1 s =
      ((judge .code q).elim (.ok [.row (q.after 1)]) .error, s'') := by
    simp [coordinates, readHandle, hr, judge, hc, hn, hq]
  rw [he]
  refine ⟨rfl, fun h => ?_, fun h => ?_⟩
  · simp only [judge, if_pos h, Option.elim]
  · simp only [judge, if_neg h, Option.elim]

/-! ## Cases -/

/-- A library that only counts its calls and returns what it is asked for. -/
def counter : Lib ℕ := fun _ _ s => (⟨0, 4096, fun _ => [1, 2, 3], fun _ => 0⟩, s + 1)

/-- The handle of a line and node 7: a call of the position of a node. -/
example : Hands [.u64 [4096], .nums [7]] [.hdl, .nat, .out 3] [.u64 [4096], .nums [7]]
    [.addr 4096, .int 7, .room 3] := by
  have := Hands.hdl (all := [.u64 [4096], .nums [7]]) 4096 []
    (Hands.nat 7 [] (by norm_num) (Hands.out 3 Hands.nil))
  exact_mod_cast this

example : (⟨"MoorDynM_GetLineNodePos", "MoorDyn_GetLineNodePos", 2, 1, [.inst, .nat 1, .room 3], .code,
    [.row 2]⟩ : Fn) ∈ wrappers ∧ "MoorDynM_GetLineNodePos" ∉ unusable := by decide +kernel

/-- A step of a system with three coupled degrees of freedom. -/
example : Hands [.u64 [64], .nums [1, 2, 3], .nums [0, 0, 0], .nums [5], .nums [1 / 10]]
    [.hdl, .vec, .vec, .like 1, .io, .io]
    [.u64 [64], .nums [1, 2, 3], .nums [0, 0, 0], .nums [5], .nums [1 / 10]]
    [.addr 64, .arr [1, 2, 3], .arr [0, 0, 0], .room 3, .cell 5, .cell (1 / 10)] :=
  .hdl 64 [] (.vec _ (.vec _ (.like 1 [1, 2, 3] rfl (.io 5 [] (.io _ [] .nil)))))

example : (run ⟨fun _ => none, fun _ => none⟩ counter
    ⟨"MoorDynM_Save", "MoorDyn_Save", 2, 0, [.inst, .chars 0], .code, []⟩ [.u64 [64], .chars "a.dat"] 0
    3).2 = 3 := by decide +kernel

/-- With characters instead of the handle, if MATLAB converts them, the library gets the handle 97. -/
example : (run ⟨fun a => match a with | .chars _ => some 97 | _ => none, fun _ => none⟩ counter
    ⟨"MoorDynM_Save", "MoorDyn_Save", 2, 0, [.inst, .chars 0], .code, []⟩ [.chars "a.dat", .u64 [64]] 0
    3).2 = 4 := by decide +kernel

example : columns 2 [1, 2, 3, 4] 0 1 = some 3 ∧ rows 2 [1, 2, 3, 4] 0 1 = some 2 := by decide +kernel

example : counter "MoorDyn_ExternalWaveKinGetN" [.addr 64, .room 1] 0 =
    (⟨0, 4096, fun _ => [1, 2, 3], fun _ => 0⟩, 1) := rfl

end MD.Matlab
