import Mathlib.Analysis.SpecialFunctions.Complex.Arg
import Mathlib.Analysis.SpecialFunctions.Trigonometric.Basic
import Mathlib.Algebra.BigOperators.Group.Finset.Basic
import Mathlib.Logic.Function.Basic
import Mathlib.Data.Nat.Sqrt

/-!
# Model of the fast Fourier transform: `source/kiss_fft.cpp` and `source/kiss_fftr.cpp`

`kiss_fft_scalar` is `double`; it is replaced by the reals, and `kiss_fft_cpx` by `ℂ`.  With
a floating point scalar `C_FIXDIV` does nothing, `HALF_OF` multiplies by one half and
`C_ADD`, `C_SUB`, `C_MUL` are the complex operations (source/_kiss_fft_guts.h:93-163).
Arrays are functions of the index.  The loops of the butterflies over a column `u` read and
write only the cells `u + q * m`, so that a butterfly is modelled as a map from column to
column.  The threads of the `_OPENMP` branch do the same calls in another order.
-/

namespace MD.FFT

open Complex

/-- Entry `i` of the twiddle factors of a transform of `n` points,
source/kiss_fft.cpp:388-395. -/
noncomputable def twiddle (inverse : Bool) (n i : ℕ) : ℂ :=
  let phase : ℝ := -2 * Real.pi * i / n
  exp ((if inverse then phase * -1 else phase : ℝ) * I)

/-- The next radix to try, source/kiss_fft.cpp:342-354; `s` is `floor_sqrt`. -/
def nextRadix (n s p : ℕ) : ℕ :=
  let p' := if p = 4 then 2 else if p = 2 then 3 else p + 2
  if s < p' then n else p'

/-- The inner loop of `kf_factor`, source/kiss_fft.cpp:341-355, with a bound on the number of
passes (`none` when it is exceeded; `findRadix_some` shows it is not). -/
def findRadix (n s : ℕ) : ℕ → ℕ → Option ℕ
  | 0, _ => none
  | fuel + 1, p => if n % p = 0 then some p else findRadix n s fuel (nextRadix n s p)

/-- The outer loop of `kf_factor`, source/kiss_fft.cpp:340-359. -/
def factorLoop (s : ℕ) : ℕ → ℕ → ℕ → Option (List (ℕ × ℕ))
  | 0, _, _ => none
  | fuel + 1, n, p =>
    match findRadix n s (s + 4) p with
    | none => none
    | some r =>
      if 1 < n / r then
        match factorLoop s fuel (n / r) r with
        | none => none
        | some l => some ((r, n / r) :: l)
      else some [(r, n / r)]

/-- `kf_factor`, source/kiss_fft.cpp:332-360: the stages `(p, m)`.  `floor(sqrt(n))` of an
`int` is exact in double precision. -/
def kfFactor (n : ℕ) : Option (List (ℕ × ℕ)) := factorLoop (Nat.sqrt n) n n 4

/-- `kf_bfly2` on column `u`, source/kiss_fft.cpp:15-33. -/
noncomputable def bfly2 (tw : ℕ → ℂ) (fs u : ℕ) (F : ℕ → ℂ) (q : ℕ) : ℂ :=
  let t := F 1 * tw (u * fs)
  if q = 0 then F 0 + t else F 0 - t

/-- `kf_bfly4` on column `u`, source/kiss_fft.cpp:35-82. -/
noncomputable def bfly4 (tw : ℕ → ℂ) (inverse : Bool) (fs u : ℕ) (F : ℕ → ℂ) (q : ℕ) : ℂ :=
  let s0 := F 1 * tw (u * fs)
  let s1 := F 2 * tw (u * (fs * 2))
  let s2 := F 3 * tw (u * (fs * 3))
  let s5 := F 0 - s1
  let f0 := F 0 + s1
  let s3 := s0 + s2
  let s4 := s0 - s2
  if q = 0 then f0 + s3
  else if q = 2 then f0 - s3
  else if q = 1 then
    if inverse then ⟨s5.re - s4.im, s5.im + s4.re⟩ else ⟨s5.re + s4.im, s5.im - s4.re⟩
  else
    if inverse then ⟨s5.re + s4.im, s5.im - s4.re⟩ else ⟨s5.re - s4.im, s5.im + s4.re⟩

/-- `kf_bfly3` on column `u`, source/kiss_fft.cpp:84-127. -/
noncomputable def bfly3 (tw : ℕ → ℂ) (fs m u : ℕ) (F : ℕ → ℂ) (q : ℕ) : ℂ :=
  let epi3 := tw (fs * m)
  let s1 := F 1 * tw (u * fs)
  let s2 := F 2 * tw (u * (fs * 2))
  let s3 := s1 + s2
  let s0 := s1 - s2
  let fm : ℂ := ⟨(F 0).re - s3.re * (1 / 2), (F 0).im - s3.im * (1 / 2)⟩
  let s0 : ℂ := ⟨s0.re * epi3.im, s0.im * epi3.im⟩
  if q = 0 then F 0 + s3
  else if q = 2 then ⟨fm.re + s0.im, fm.im - s0.re⟩
  else ⟨fm.re - s0.im, fm.im + s0.re⟩

/-- `kf_bfly5` on column `u`, source/kiss_fft.cpp:129-196. -/
noncomputable def bfly5 (tw : ℕ → ℂ) (fs m u : ℕ) (F : ℕ → ℂ) (q : ℕ) : ℂ :=
  let ya := tw (fs * m)
  let yb := tw (fs * 2 * m)
  let s0 := F 0
  let s1 := F 1 * tw (u * fs)
  let s2 := F 2 * tw (2 * u * fs)
  let s3 := F 3 * tw (3 * u * fs)
  let s4 := F 4 * tw (4 * u * fs)
  let s7 := s1 + s4
  let s10 := s1 - s4
  let s8 := s2 + s3
  let s9 := s2 - s3
  let s5 : ℂ := ⟨s0.re + s7.re * ya.re + s8.re * yb.re, s0.im + s7.im * ya.re + s8.im * yb.re⟩
  let s6 : ℂ := ⟨s10.im * ya.im + s9.im * yb.im, -(s10.re * ya.im) - s9.re * yb.im⟩
  let s11 : ℂ := ⟨s0.re + s7.re * yb.re + s8.re * ya.re, s0.im + s7.im * yb.re + s8.im * ya.re⟩
  let s12 : ℂ := ⟨-(s10.im * yb.im) + s9.im * ya.im, s10.re * yb.im - s9.re * ya.im⟩
  if q = 0 then ⟨s0.re + (s7.re + s8.re), s0.im + (s7.im + s8.im)⟩
  else if q = 1 then s5 - s6
  else if q = 4 then s5 + s6
  else if q = 2 then s11 + s12
  else s11 - s12

/-- `kf_bfly_generic` on column `u`, source/kiss_fft.cpp:198-237: the running index into the
twiddle factors is reduced by one subtraction of the number of points. -/
noncomputable def bflyGeneric (tw : ℕ → ℂ) (n fs m p u : ℕ) (F : ℕ → ℂ) (q : ℕ) : ℂ :=
  let k := u + q * m
  ((List.range' 1 (p - 1)).foldl (fun (a : ℕ × ℂ) (j : ℕ) =>
      let t := a.1 + fs * k
      let t := if n ≤ t then t - n else t
      (t, a.2 + F j * tw t)) (0, F 0)).2

/-- The choice of the butterfly, source/kiss_fft.cpp:309-325. -/
noncomputable def butterfly (tw : ℕ → ℂ) (inverse : Bool) (n fs p m u : ℕ) (F : ℕ → ℂ) : ℕ → ℂ :=
  if p = 2 then bfly2 tw fs u F
  else if p = 3 then bfly3 tw fs m u F
  else if p = 4 then bfly4 tw inverse fs u F
  else if p = 5 then bfly5 tw fs m u F
  else bflyGeneric tw n fs m p u F

/-- `kf_work`, source/kiss_fft.cpp:239-326, with unit input stride.  The case without factors
would read behind the table; `kfFactor_chain` shows that it is not reached. -/
noncomputable def kfWork (tw : ℕ → ℂ) (inverse : Bool) (n : ℕ) :
    List (ℕ × ℕ) → ℕ → (ℕ → ℂ) → ℕ → ℂ
  | [], _, f => f
  | (p, m) :: rest, fs, f =>
    let sub := fun q : ℕ =>
      if m = 1 then fun _ => f (q * fs)
      else kfWork tw inverse n rest (fs * p) (fun i => f (q * fs + i))
    fun k => butterfly tw inverse n fs p m (k % m) (fun q => sub q (k % m)) (k / m)

/-- `kiss_fft_alloc` and `kiss_fft`, source/kiss_fft.cpp:369-426.  With no points the
factorisation ends at once with a stage of length zero, which `kf_work` takes for a stage
with further factors: it reads the uninitialised table (`none`). -/
noncomputable def kissFFT (inverse : Bool) (n : ℕ) (x : ℕ → ℂ) : Option (ℕ → ℂ) :=
  if n = 0 then none
  else (kfFactor n).map fun fac => kfWork (twiddle inverse n) inverse n fac 1 x

/-! ## The real transforms -/

/-- Entry `i` of `super_twiddles`, source/kiss_fftr.cpp:55-61; `n` is half of the points. -/
noncomputable def superTwiddle (inverse : Bool) (n i : ℕ) : ℂ :=
  let phase : ℝ := -Real.pi * ((i + 1 : ℕ) / n + 1 / 2)
  exp ((if inverse then phase * -1 else phase : ℝ) * I)

/-- One pass of the loop of `kiss_fftr`, source/kiss_fftr.cpp:106-121. -/
noncomputable def fftrStep (n : ℕ) (buf : ℕ → ℂ) (out : ℕ → ℂ) (k : ℕ) : ℕ → ℂ :=
  let fpk := buf k
  let fpnk : ℂ := ⟨(buf (n - k)).re, -(buf (n - k)).im⟩
  let f1k := fpk + fpnk
  let f2k := fpk - fpnk
  let tw := f2k * superTwiddle false n (k - 1)
  Function.update
    (Function.update out k ⟨(f1k.re + tw.re) * (1 / 2), (f1k.im + tw.im) * (1 / 2)⟩)
    (n - k) ⟨(f1k.re - tw.re) * (1 / 2), (tw.im - f1k.im) * (1 / 2)⟩

/-- `kiss_fftr` for `2 * n` points, source/kiss_fftr.cpp:65-122; `out` is the previous content
of the output. -/
noncomputable def kissFFTR (n : ℕ) (x : ℕ → ℝ) (out : ℕ → ℂ) : Option (ℕ → ℂ) :=
  (kissFFT false n fun m => ⟨x (2 * m), x (2 * m + 1)⟩).map fun buf =>
    let out := Function.update out 0 ⟨(buf 0).re + (buf 0).im, 0⟩
    let out := Function.update out n ⟨(buf 0).re - (buf 0).im, 0⟩
    (List.range' 1 (n / 2)).foldl (fftrStep n buf) out

/-- One pass of the loop of `kiss_fftri`, source/kiss_fftr.cpp:143-161. -/
noncomputable def fftriStep (n : ℕ) (X : ℕ → ℂ) (buf : ℕ → ℂ) (k : ℕ) : ℕ → ℂ :=
  let fk := X k
  let fnkc : ℂ := ⟨(X (n - k)).re, -(X (n - k)).im⟩
  let fek := fk + fnkc
  let tmp := fk - fnkc
  let fok := tmp * superTwiddle true n (k - 1)
  let d := fek - fok
  Function.update (Function.update buf k (fek + fok)) (n - k) ⟨d.re, d.im * -1⟩

/-- `kiss_fftri` for `2 * n` points, source/kiss_fftr.cpp:124-163; `buf` is the previous
content of the buffer. -/
noncomputable def kissFFTRI (n : ℕ) (X : ℕ → ℂ) (buf : ℕ → ℂ) : Option (ℕ → ℝ) :=
  let buf := Function.update buf 0 ⟨(X 0).re + (X n).re, (X 0).re - (X n).re⟩
  let buf := (List.range' 1 (n / 2)).foldl (fftriStep n X) buf
  (kissFFT true n buf).map fun z =>
    fun j => if j % 2 = 0 then (z (j / 2)).re else (z (j / 2)).im

end MD.FFT
