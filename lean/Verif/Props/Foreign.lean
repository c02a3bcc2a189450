import Verif.Model.Foreign

/-!
# C96: what the C functions receive from Fortran, Rust and MATLAB
-/

set_option linter.unusedSimpArgs false
set_option linter.unnecessarySeqFocus false

namespace MD.Foreign

/-! ## Specification -/

/-- The Fortran declaration of a parameter that says the same as the C one. -/
def Same : FT → CT → Prop
  | .hdl, .hdl | .int, .int | .dbl, .dbl => True
  | .dblArr, .dblPtr | .dblRef, .dblPtr | .intRef, .intPtr | .hdlRef, .hdlPtr | .chrArr, .chrPtr => True
  | _, _ => False

instance : DecidableRel Same := fun f c => by
  cases f <;> cases c <;> unfold Same <;> infer_instance

/-- The value handed over, as the C function should find it. -/
def meant : FVal → Got
  | .addr a => .addr a
  | .int n => .int n
  | .dbl x => .dbl x

/-- The values are of the kinds declared, integers within 32 bits. -/
def Fit : List FVal → List FT → Prop
  | [], [] => True
  | v :: vs, t :: ts => v.fits t = true ∧ (∀ n, v = .int n → -(2 ^ 31) ≤ n ∧ n < 2 ^ 31) ∧ Fit vs ts
  | _, _ => False

/-- The declarations agree parameter by parameter. -/
def Agree : List FT → List CT → Prop
  | [], [] => True
  | f :: fs, c :: cs => Same f c ∧ Agree fs cs
  | _, _ => False

instance decAgree : (fs : List FT) → (cs : List CT) → Decidable (Agree fs cs)
  | [], [] => isTrue trivial
  | [], _ :: _ => isFalse id
  | _ :: _, [] => isFalse id
  | f :: fs, c :: cs => by
    haveI := decAgree fs cs
    exact inferInstanceAs (Decidable (Same f c ∧ Agree fs cs))

theorem low32_id (n : ℤ) (h : -(2 ^ 31) ≤ n ∧ n < 2 ^ 31) : low32 n = n := by
  unfold low32; omega

/-- C96: where the two declarations agree the C function finds what was handed over, by either set of
rules. -/
theorem C96_received (vs : List FVal) (fs : List FT) (cs : List CT) (hv : Fit vs fs)
    (ha : Agree fs cs) : sysV cs vs = vs.map meant ∧ microsoft cs vs = vs.map meant := by
  unfold sysV
  induction vs generalizing fs cs with
  | nil =>
    cases fs with
    | nil => cases cs with
      | nil => exact ⟨rfl, rfl⟩
      | cons c cs => exact ha.elim
    | cons f fs => exact hv.elim
  | cons v vs ih =>
    cases fs with
    | nil => exact hv.elim
    | cons f fs =>
      cases cs with
      | nil => exact ha.elim
      | cons c cs =>
        obtain ⟨hf, hn, hv⟩ := hv
        obtain ⟨hs, ha⟩ := ha
        obtain ⟨i1, i2⟩ := ih fs cs hv ha
        cases v with
        | addr a =>
          cases f <;> cases c <;> simp [Same, FVal.fits] at hs hf <;>
            simp [general, floating, receive, microsoft, meant, i1, i2]
        | int n =>
          have hl := low32_id n (hn n rfl)
          cases f <;> cases c <;> simp [Same, FVal.fits] at hs hf <;>
            simp [general, floating, receive, microsoft, meant, i1, i2, hl]
        | dbl x =>
          cases f <;> cases c <;> simp [Same, FVal.fits] at hs hf <;>
            simp [general, floating, receive, microsoft, meant, i1, i2]

/-- The functions whose declarations do not agree. -/
def wrongOnes : List String :=
  ["MD_SetVerbosity", "MD_SetLogLevel", "MD_Log", "MD_ExternalWaveKinSet", "MD_GetFASTtens",
   "MD_GetWavesKin", "MD_SetLineConstantEA", "MD_SetLinePressBend"]

/-- The C function a Fortran function is named after. -/
def namesake (name : String) : String := "MoorDyn_" ++ String.ofList (name.toList.drop 3)

/-- C96: every function of the Fortran module but eight is bound to the C function it is named after,
with the parameters of its prototype. -/
theorem C96_declared (f : FFn) (hf : f ∈ fortran) (hw : f.name ∉ wrongOnes) :
    f.symbol = namesake f.name ∧ ∃ c ∈ prototypes, c.name = f.symbol ∧ Agree f.args c.args ∧
      (f.args.filter fun t => t ≠ .dbl).length ≤ 6 ∧ (f.args.filter fun t => t = .dbl).length ≤ 8 := by
  have : ∀ g ∈ fortran, g.name ∉ wrongOnes →
    g.symbol = namesake g.name ∧ ∃ c ∈ prototypes, c.name = g.symbol ∧ Agree g.args c.args ∧
      (g.args.filter fun t => t ≠ .dbl).length ≤ 6 ∧
      (g.args.filter fun t => t = .dbl).length ≤ 8 := by decide +kernel
  exact this f hf hw

/-- C96: so each of these hands every argument over as it is. -/
theorem C96_fortran (f : FFn) (hf : f ∈ fortran) (hw : f.name ∉ wrongOnes) (vs : List FVal)
    (hv : Fit vs f.args) :
    ∃ c ∈ prototypes, c.name = namesake f.name ∧ sysV c.args vs = vs.map meant ∧
      microsoft c.args vs = vs.map meant := by
  obtain ⟨h1, c, hc, hn, ha, -⟩ := C96_declared f hf hw
  exact ⟨c, hc, hn.trans h1, C96_received vs f.args c.args hv ha⟩

/-- C96, false: `MD_SetVerbosity` is bound to a symbol no header declares: a program that calls it
cannot be linked. -/
theorem C96_verbosity_false :
    (∃ f ∈ fortran, f.name = "MD_SetVerbosity" ∧ ∀ c ∈ prototypes, c.name ≠ f.symbol) := by
  decide +kernel

/-- C96: it is the only one. -/
theorem C96_linked (f : FFn) (hf : f ∈ fortran) (hw : f.name ≠ "MD_SetVerbosity") :
    ∃ c ∈ prototypes, c.name = f.symbol := by
  have : ∀ g ∈ fortran, g.name ≠ "MD_SetVerbosity" → ∃ c ∈ prototypes, c.name = g.symbol := by
    decide +kernel
  exact this f hf hw

/-- The declarations at fault, and the prototypes. -/
theorem wrong_tables :
    (⟨"MD_SetLogLevel", "MoorDyn_SetLogLevel", [.hdl, .intRef]⟩ : FFn) ∈ fortran ∧
    (⟨"MoorDyn_SetLogLevel", [.hdl, .int]⟩ : CFn) ∈ prototypes ∧
    (⟨"MD_Log", "MoorDyn_Log", [.hdl, .intRef, .chrArr]⟩ : FFn) ∈ fortran ∧
    (⟨"MoorDyn_Log", [.hdl, .int, .chrPtr]⟩ : CFn) ∈ prototypes ∧
    (⟨"MD_SetLinePressBend", "MoorDyn_SetLinePressBend", [.hdl, .intRef]⟩ : FFn) ∈ fortran ∧
    (⟨"MoorDyn_SetLinePressBend", [.hdl, .int]⟩ : CFn) ∈ prototypes ∧
    (⟨"MD_SetLineConstantEA", "MoorDyn_SetLineConstantEA", [.hdl, .dblRef]⟩ : FFn) ∈ fortran ∧
    (⟨"MoorDyn_SetLineConstantEA", [.hdl, .dbl]⟩ : CFn) ∈ prototypes ∧
    (⟨"MD_ExternalWaveKinSet", "MoorDyn_ExternalWaveKinSet",
      [.hdl, .dblArr, .dblArr, .dblRef]⟩ : FFn) ∈ fortran ∧
    (⟨"MoorDyn_ExternalWaveKinSet", [.hdl, .dblPtr, .dblPtr, .dbl]⟩ : CFn) ∈ prototypes ∧
    (⟨"MD_GetWavesKin", "MoorDyn_GetWavesKin", [.hdl, .dbl, .dbl, .dbl, .dbl, .dblArr, .dblArr,
      .dblRef, .dblRef, .hdl]⟩ : FFn) ∈ fortran ∧
    (⟨"MoorDyn_GetWavesKin", [.hdl, .dbl, .dbl, .dbl, .dblPtr, .dblPtr, .dblPtr, .dblPtr,
      .hdl]⟩ : CFn) ∈ prototypes ∧
    (⟨"MD_GetFASTtens", "MoorDyn_GetFASTtens", [.hdl, .intRef, .dblArr, .dblArr, .dblArr,
      .dblArr]⟩ : FFn) ∈ fortran ∧
    (⟨"MoorDyn_GetFASTtens", [.hdl, .intPtr, .fltPtr, .fltPtr, .fltPtr, .fltPtr]⟩ : CFn) ∈
      prototypes := by decide +kernel

/-- C96, false: the level of the log and the switch of the pressure bending arrive as part of the
address of the variable, whatever the variable holds. -/
theorem C96_reference_false (h a : ℕ) :
    sysV [.hdl, .int] [.addr h, .addr a] = [.addr h, .int (low32 a)] ∧
    microsoft [.hdl, .int] [.addr h, .addr a] = [.addr h, .int (low32 a)] := ⟨rfl, rfl⟩

/-- C96, false: so `MD_SetLinePressBend` switches the pressure bending on, also when asked to switch
it off, unless the address is a multiple of 2 to the 32. -/
theorem C96_press_bend_false (a : ℕ) : low32 a ≠ 0 ↔ ¬ (2 ^ 32 : ℤ) ∣ a := by
  unfold low32
  omega

/-- C96, false: `MD_SetLineConstantEA` hands over no stiffness at all: the C function takes what
happens to be in the register. -/
theorem C96_stiffness_false (h a : ℕ) :
    sysV [.hdl, .dbl] [.addr h, .addr a] = [.addr h, .junk] ∧
    microsoft [.hdl, .dbl] [.addr h, .addr a] = [.addr h, .junk] := ⟨rfl, rfl⟩

/-- C96: `MD_ExternalWaveKinSet` hands over the velocities and accelerations; the time is lost, which
the library does not use. -/
theorem C96_ext_wave_partial (h u ud t : ℕ) :
    sysV [.hdl, .dblPtr, .dblPtr, .dbl] [.addr h, .addr u, .addr ud, .addr t] =
      [.addr h, .addr u, .addr ud, .junk] ∧
    microsoft [.hdl, .dblPtr, .dblPtr, .dbl] [.addr h, .addr u, .addr ud, .addr t] =
      [.addr h, .addr u, .addr ud, .junk] := ⟨rfl, rfl⟩

/-- C96: `MD_GetWavesKin` declares a time that the C function does not have; by the System V rules
everything else arrives all the same. -/
theorem C96_waves_partial (h u ud z p s : ℕ) (x y w t : ℚ) :
    sysV [.hdl, .dbl, .dbl, .dbl, .dblPtr, .dblPtr, .dblPtr, .dblPtr, .hdl]
      [.addr h, .dbl x, .dbl y, .dbl w, .dbl t, .addr u, .addr ud, .addr z, .addr p, .addr s] =
      [.addr h, .dbl x, .dbl y, .dbl w, .addr u, .addr ud, .addr z, .addr p, .addr s] := rfl

/-- C96, false: by the Microsoft rules each address after the time arrives one parameter late: the
velocity is written at an address made of the time, and the sea floor is taken to be the place of the
pressure. -/
theorem C96_waves_false (h u ud z p s : ℕ) (x y w t : ℚ) :
    microsoft [.hdl, .dbl, .dbl, .dbl, .dblPtr, .dblPtr, .dblPtr, .dblPtr, .hdl]
      [.addr h, .dbl x, .dbl y, .dbl w, .dbl t, .addr u, .addr ud, .addr z, .addr p, .addr s] =
      [.addr h, .dbl x, .dbl y, .dbl w, .junk, .addr u, .addr ud, .addr z, .addr p] := rfl

/-- C96, false: `MD_GetFASTtens` fills arrays of double precision with single precision numbers: the
tension of line `i` is made of those of the lines `2 i` and `2 i + 1`, and for the second half of the
lines the arrays keep what they held. -/
theorem C96_fast_false (n : ℕ) (floats old : ℕ → ℕ) (i : ℕ) :
    (2 * i + 1 < n → overwrite n floats old i = (floats (2 * i), floats (2 * i + 1))) ∧
    (n ≤ 2 * i → overwrite n floats old i = (old (2 * i), old (2 * i + 1))) := by
  unfold overwrite
  constructor
  · intro h
    rw [if_pos (by omega), if_pos h]
  · intro h
    rw [if_neg (by omega), if_neg (by omega)]

/-! ## Rust -/

/-- The values are of the C types declared, integers within 32 bits. -/
def FitC : List FVal → List CT → Prop
  | [], [] => True
  | .int n :: vs, .int :: ts => (-(2 ^ 31) ≤ n ∧ n < 2 ^ 31) ∧ FitC vs ts
  | .dbl _ :: vs, .dbl :: ts => FitC vs ts
  | .addr _ :: vs, t :: ts => t ≠ .int ∧ t ≠ .dbl ∧ FitC vs ts
  | _, _ => False

theorem received_same (vs : List FVal) (cs : List CT) (hv : FitC vs cs) :
    sysV cs vs = vs.map meant ∧ microsoft cs vs = vs.map meant := by
  unfold sysV
  induction vs generalizing cs with
  | nil => cases cs with
    | nil => exact ⟨rfl, rfl⟩
    | cons c cs => exact hv.elim
  | cons v vs ih =>
    cases cs with
    | nil => cases v <;> exact hv.elim
    | cons c cs =>
      cases v with
      | addr a =>
        obtain ⟨h1, h2, h3⟩ := hv
        obtain ⟨i1, i2⟩ := ih cs h3
        cases c <;> simp_all [general, floating, receive, microsoft, meant]
      | int n =>
        cases c with
        | int =>
          obtain ⟨h1, h3⟩ := hv
          obtain ⟨i1, i2⟩ := ih cs h3
          simp [general, floating, receive, microsoft, meant, i1, i2, low32_id n h1]
        | _ => exact hv.elim
      | dbl x =>
        cases c with
        | dbl =>
          obtain ⟨i1, i2⟩ := ih cs hv
          simp [general, floating, receive, microsoft, meant, i1, i2]
        | _ => exact hv.elim

/-- C96: every function declared for Rust but one has the parameters of the C function of its name, so that
the C function finds what was handed over, by either set of rules. -/
theorem C96_rust (f : CFn) (hf : f ∈ rust) (hw : f.name ≠ "MoorDyn_GetWavesKin") :
    f ∈ prototypes ∧ (f.args.filter fun t => t ≠ .dbl).length ≤ 6 ∧
      (f.args.filter fun t => t = .dbl).length ≤ 8 ∧
      ∀ vs, FitC vs f.args → sysV f.args vs = vs.map meant ∧ microsoft f.args vs = vs.map meant := by
  have : ∀ g ∈ rust, g.name ≠ "MoorDyn_GetWavesKin" → g ∈ prototypes ∧
      (g.args.filter fun t => t ≠ .dbl).length ≤ 6 ∧ (g.args.filter fun t => t = .dbl).length ≤ 8 := by
    decide +kernel
  obtain ⟨h1, h2, h3⟩ := this f hf hw
  exact ⟨h1, h2, h3, fun vs hv => received_same vs f.args hv⟩

/-- C96, false: the declaration of `MoorDyn_GetWavesKin` for Rust has no sea floor: a call that fits it leaves
that parameter of the C function, which it reads if it is not zero, to what happens to be there.  Everything
else arrives. -/
theorem C96_rust_waves_false (f c : CFn) (hf : f ∈ rust) (hc : c ∈ prototypes)
    (h1 : f.name = "MoorDyn_GetWavesKin") (h2 : c.name = "MoorDyn_GetWavesKin") (vs : List FVal)
    (hv : FitC vs f.args) :
    sysV c.args vs = vs.map meant ++ [.junk] ∧ microsoft c.args vs = vs.map meant ++ [.junk] := by
  have hft : ∀ g ∈ rust, g.name = "MoorDyn_GetWavesKin" →
      g.args = [.hdl, .dbl, .dbl, .dbl, .dblPtr, .dblPtr, .dblPtr, .dblPtr] := by decide +kernel
  have hct : ∀ g ∈ prototypes, g.name = "MoorDyn_GetWavesKin" →
      g.args = [.hdl, .dbl, .dbl, .dbl, .dblPtr, .dblPtr, .dblPtr, .dblPtr, .hdl] := by decide +kernel
  rw [hft f hf h1] at hv
  rw [hct c hc h2]
  match vs, hv with
  | [.addr h, .dbl x, .dbl y, .dbl z, .addr a, .addr b, .addr d, .addr e], _ => exact ⟨rfl, rfl⟩

example : FitC [.addr 4096, .dbl 1, .dbl 2, .dbl (-3), .addr 1, .addr 2, .addr 3, .addr 4]
    [.hdl, .dbl, .dbl, .dbl, .dblPtr, .dblPtr, .dblPtr, .dblPtr] ∧
    (⟨"MoorDyn_GetWavesKin", [.hdl, .dbl, .dbl, .dbl, .dblPtr, .dblPtr, .dblPtr, .dblPtr]⟩ : CFn) ∈ rust := by
  refine ⟨by simp [FitC], by decide +kernel⟩

example : rust.length = 52 ∧ FitC [.addr 4096, .int 3, .addr 8192] [.hdl, .int, .dblPtr] := by
  refine ⟨by decide +kernel, by simp [FitC]⟩

/-! ## MATLAB -/

/-- C96: given arrays at least as long as there are coupled degrees of freedom, the MATLAB step hands
their first numbers over and returns the new time and the forces, with zeros up to the length of the
positions. -/
theorem C96_matlab_step (n : ℕ) (f : List ℚ → List ℚ → ℚ → ℚ → ℚ × ℤ × List ℚ) (x xd : List ℚ)
    (t dt : ℚ) (hx : n ≤ x.length) (hv : n ≤ xd.length)
    (h0 : (f (x.take n) (xd.take n) t dt).2.1 = 0)
    (hl : (f (x.take n) (xd.take n) t dt).2.2.length = n) :
    ∃ t' g, matlabStep n f x xd t dt = .ok (t', g) ∧ t' = (f (x.take n) (xd.take n) t dt).1 ∧
      g.take n = (f (x.take n) (xd.take n) t dt).2.2 ∧ g.length = x.length ∧
      ∀ y ∈ g.drop n, y = 0 := by
  refine ⟨_, (f (x.take n) (xd.take n) t dt).2.2 ++ List.replicate (x.length - n) 0, ?_, rfl, ?_, ?_,
    ?_⟩
  · simp [matlabStep, readN, hx, hv, h0]
  · rw [List.take_append_of_le_length (by omega), List.take_of_length_le (by omega)]
  · simp [hl]; omega
  · intro y hy
    rw [List.drop_append_of_le_length (by omega)] at hy
    simp [List.drop_of_length_le (le_of_eq hl)] at hy
    exact hy.2

/-- C96: an error of the library is an error in MATLAB. -/
theorem C96_matlab_error (n : ℕ) (f : List ℚ → List ℚ → ℚ → ℚ → ℚ × ℤ × List ℚ) (x xd : List ℚ)
    (t dt : ℚ) (hx : n ≤ x.length) (hv : n ≤ xd.length)
    (h0 : (f (x.take n) (xd.take n) t dt).2.1 ≠ 0) :
    matlabStep n f x xd t dt = .error (f (x.take n) (xd.take n) t dt).2.1 := by
  simp [matlabStep, readN, hx, hv, h0]

/-- C96: so it is in the initialisation: it is a success if the library says so of the first numbers of the arrays, and
otherwise the error of the library. -/
theorem C96_matlab_init (n : ℕ) (f : List ℚ → List ℚ → ℤ) (x xd : List ℚ) (hx : n ≤ x.length) (hv : n ≤ xd.length) :
    (matlabInit n f x xd = .ok () ↔ f (x.take n) (xd.take n) = 0) ∧
      ∀ e, matlabInit n f x xd = .error e ↔ f (x.take n) (xd.take n) = e ∧ e ≠ 0 := by
  unfold matlabInit readN
  simp only [if_pos hx, if_pos hv]
  split_ifs with h
  · refine ⟨by simp [h], fun e => ⟨fun h1 => ?_, fun h1 => by rw [h1.1]⟩⟩
    cases h1
    exact ⟨rfl, h⟩
  · have h := not_not.1 h
    refine ⟨by simp [h], fun e => ⟨fun h1 => (nomatch h1), fun h1 => absurd (h1.1.symm.trans h) h1.2⟩⟩

/-- C96, false of safety: shorter arrays are not refused: the library reads past their end, in the step
and in the initialisation, and nowhere else. -/
theorem C96_matlab_short_false (n : ℕ) (f : List ℚ → List ℚ → ℚ → ℚ → ℚ × ℤ × List ℚ)
    (g : List ℚ → List ℚ → ℤ) (x xd : List ℚ) (t dt : ℚ) :
    (matlabStep n f x xd t dt = .undef ↔ x.length < n ∨ xd.length < n) ∧
    (matlabInit n g x xd = .undef ↔ x.length < n ∨ xd.length < n) := by
  unfold matlabStep matlabInit readN
  by_cases hx : n ≤ x.length <;> by_cases hv : n ≤ xd.length
  · simp only [if_pos hx, if_pos hv]
    constructor
    · split <;> constructor <;> intro h
      · cases h
      · omega
      · cases h
      · omega
    · split <;> constructor <;> intro h
      · cases h
      · omega
      · cases h
      · omega
  all_goals
    simp [hx, hv]
    try omega

/-! ## Cases -/

example : (fortran.filter fun f => f.name ∉ wrongOnes).length = 79 ∧ fortran.length = 87 := by
  decide +kernel

/-- A call of `MD_GetLineNodePos`. -/
example : sysV [.hdl, .int, .dblPtr] [.addr 4096, .int 3, .addr 8192] =
    [.addr 4096, .int 3, .addr 8192] ∧
    Fit [.addr 4096, .int 3, .addr 8192] [.hdl, .int, .dblArr] := by
  refine ⟨by decide +kernel, ?_⟩
  simp [Fit, FVal.fits]

/-- A flag of zero at an address on the stack arrives as a number other than zero. -/
example : sysV [.hdl, .int] [.addr 4096, .addr 140737488347148] = [.addr 4096, .int (-8180)] := by
  decide +kernel

/-- Three lines: the first number of the caller mixes two lines, the last one is what was there. -/
example : (List.range 3).map (overwrite 3 (fun i => 10 + i) (fun _ => 0)) =
    [(10, 11), (12, 0), (0, 0)] := by decide +kernel

example : matlabStep 2 (fun x v t dt => (t + dt, 0, [x.sum, v.sum])) [1, 2, 3] [4, 5, 6] 0 1 =
    .ok (1, [3, 9, 0]) ∧
    matlabInit 2 (fun x _ => if x = [1, 2] then 0 else -5) [1, 2, 3] [4, 5] = .ok () ∧
    matlabInit 2 (fun x _ => if x = [1, 2] then 0 else -5) [1, 3, 3] [4, 5] = .error (-5) ∧
    matlabStep 2 (fun x v t dt => (t + dt, 0, [x.sum, v.sum])) [1] [4, 5, 6] 0 1 = .undef := by
  decide +kernel

end MD.Foreign
