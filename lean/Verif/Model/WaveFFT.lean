import Verif.Model.FFT
import Verif.Model.Spectrum
import Verif.Model.WaveNumber

/-!
# Model of the construction of wave and current grids: `source/Waves/WaveGrid.cpp`

Real arithmetic.  The series of one node of the grid are functions of the sample index.
The reading of the numbers from the files is not part of this module.
-/

namespace MD.Waves

open MD.Interp MD.FFT

/-- `doIFFT`, source/Waves/WaveGrid.cpp:20-58, for `2 * n` samples; `junk` is the previous
content of the buffer of the transform. -/
noncomputable def doIFFT (n : ℕ) (junk X : ℕ → ℂ) : Option (ℕ → ℝ) :=
  (kissFFTRI n X junk).map fun y j => y j / ((2 * n : ℕ) : ℝ)

/-- What `fillWaveGrid` is given, source/Waves/WaveGrid.cpp:69-77 and 107-109: `n + 1`
amplitudes and directions, the frequency step, gravity, depth and density.  The number of
samples, a field of the grid, is `2 * n` in both of its callers (lines 391 and 483). -/
structure FillIn where
  n : ℕ
  z0 : ℕ → ℂ
  beta : ℕ → ℝ
  dw : ℝ
  g : ℝ
  h : ℝ
  rho : ℝ

/-- `waveGrid->dtWave`, source/Waves/WaveGrid.cpp:102-104. -/
noncomputable def FillIn.dt (f : FillIn) : ℝ := (2 * Real.pi / f.dw) / ((2 * f.n : ℕ) : ℝ)

/-- `w[i]`, source/Waves/WaveGrid.cpp:111-113. -/
noncomputable def FillIn.w (f : FillIn) (i : ℕ) : ℝ := i * f.dw

/-- `k[I]`, source/Waves/WaveGrid.cpp:119-122. -/
noncomputable def FillIn.k (f : FillIn) (i : ℕ) : ℝ := waveNumber (f.w i) f.g f.h

/-- `zetaC[I]`, source/Waves/WaveGrid.cpp:153-158. -/
noncomputable def FillIn.zetaC (f : FillIn) (x y : ℝ) (i : ℕ) : ℂ :=
  let l := Real.cos (f.beta i) * x + Real.sin (f.beta i) * y
  f.z0 i * Complex.exp (-Complex.I * ((f.k i * l : ℝ) : ℂ))

/-- `COSHNumOvrCOSHDen`, source/Waves/WaveGrid.cpp:179-210; the other two ratios of these
lines are the same as in the component method (`sinhRatio`, `coshRatio`). -/
noncomputable def coshCosh (k h z : ℝ) : ℝ :=
  if k = 0 then 1
  else if 89.4 < k * h then Real.exp (k * z) + Real.exp (-k * (z + 2 * h))
  else if 89.4 < -k * h then -Real.exp (-k * z) + Real.exp (-k * (z + 2 * h))
  else Real.cosh (k * (z + h)) / Real.cosh (k * h)

/-- `PDynC`, source/Waves/WaveGrid.cpp:212-213. -/
noncomputable def FillIn.pC (f : FillIn) (x y z : ℝ) (i : ℕ) : ℂ :=
  f.rho * f.g * f.zetaC x y i * coshCosh (f.k i) f.h z

/-- `UCx`, source/Waves/WaveGrid.cpp:218-219. -/
noncomputable def FillIn.ux (f : FillIn) (x y z : ℝ) (i : ℕ) : ℂ :=
  f.w i * f.zetaC x y i * coshRatio (f.k i) f.h z * Real.cos (f.beta i)

/-- `UCy`, source/Waves/WaveGrid.cpp:220-221. -/
noncomputable def FillIn.uy (f : FillIn) (x y z : ℝ) (i : ℕ) : ℂ :=
  f.w i * f.zetaC x y i * coshRatio (f.k i) f.h z * Real.sin (f.beta i)

/-- `UCz`, source/Waves/WaveGrid.cpp:222. -/
noncomputable def FillIn.uz (f : FillIn) (x y z : ℝ) (i : ℕ) : ℂ :=
  Complex.I * f.w i * f.zetaC x y i * sinhRatio (f.k i) f.h z

/-- The series stored for one node of the grid. -/
structure NodeSeries where
  zeta : ℕ → ℝ
  pdyn : ℕ → ℝ
  vel : ℕ → R3
  acc : ℕ → R3

/-- The body of the loops of `fillWaveGrid` for one node, source/Waves/WaveGrid.cpp:147-266; the
accelerations are lines 227-229. -/
noncomputable def FillIn.node (f : FillIn) (junk : ℕ → ℂ) (x y z : ℝ) : Option NodeSeries := do
  let zeta ← doIFFT f.n junk (f.zetaC x y)
  let p ← doIFFT f.n junk (f.pC x y z)
  let vx ← doIFFT f.n junk (f.ux x y z)
  let vy ← doIFFT f.n junk (f.uy x y z)
  let vz ← doIFFT f.n junk (f.uz x y z)
  let ax ← doIFFT f.n junk (fun i => Complex.I * f.w i * f.ux x y z i)
  let ay ← doIFFT f.n junk (fun i => Complex.I * f.w i * f.uy x y z i)
  let az ← doIFFT f.n junk (fun i => Complex.I * f.w i * f.uz x y z i)
  return ⟨zeta, p, fun j => ⟨vx j, vy j, vz j⟩, fun j => ⟨ax j, ay j, az j⟩⟩

/-- `constructWaveGridSpectrumData`, source/Waves/WaveGrid.cpp:380-407, from the resampled
components `evenFreqComps` on; `none` is the exception of `at(1)`. -/
noncomputable def spectrumFill (cs : List (Comp ℝ ℂ)) (g h rho : ℝ) : Option FillIn := do
  let c0 ← cs[0]?
  let c1 ← cs[1]?
  let n := cs.length - 1
  return { n := n
           z0 := fun i => ((cs[i]?.map (·.amp)).getD 0) * n
           beta := fun i => (cs[i]?.map (·.beta)).getD 0
           dw := c1.omega - c0.omega
           g := g, h := h, rho := rho }

/-- `constructWaveGridSpectrumData`, source/Waves/WaveGrid.cpp:353-407, from the components of
the file on; `none` is an exception, or a resampling which is undefined. -/
noncomputable def spectrumGrid (raw : List (Comp ℝ ℂ)) (g h rho : ℝ) : Option FillIn := do
  let c ← raw[0]?
  if c.omega ≠ 0 then none
  match resample raw with
  | .ok cs => spectrumFill cs g h rho
  | _ => none

/-- The components which the component method makes of a spectrum,
source/Waves/SpectrumKin.cpp:15-36. -/
noncomputable def spectrumComps (cs : List (Comp ℝ ℂ)) (g h : ℝ) : List WaveComp :=
  cs.map fun c => ⟨‖c.amp‖, c.omega, c.beta, Complex.arg c.amp, waveNumber c.omega g h⟩

/-- The resampled elevation of `constructWaveGridElevationData` and the half of the number of
samples kept, source/Waves/WaveGrid.cpp:450-475.  A time which is negative makes the number
of samples undefined. -/
noncomputable def elevationSamples (times elevs : List ℝ) (dtWave : ℝ) : Option (ℕ × List ℝ) := do
  let last ← times.getLast?
  if last / dtWave < 0 then none
  let nt := ⌊last / dtWave⌋₊ + 1
  let ys ← interpVec times elevs ((List.range nt).map fun i : ℕ => (i : ℝ) * dtWave) (List.replicate nt 0)
  if nt % 2 ≠ 0 then return ((nt - 1) / 2, ys.dropLast) else return (nt / 2, ys)

/-- The rest of `constructWaveGridElevationData`, source/Waves/WaveGrid.cpp:477-539.  Without
samples the transform is not defined. -/
noncomputable def elevationFill (times elevs : List ℝ) (dtWave g h rho : ℝ) (out : ℕ → ℂ) :
    Option FillIn := do
  let (n, ys) ← elevationSamples times elevs dtWave
  let dw := Real.pi / (dtWave * n)
  let X ← kissFFTR n (fun j => ys.getD j 0) out
  return { n := n
           z0 := fun i => if 0.5 * 2 * Real.pi < i * dw then 0 else X i
           beta := fun _ => 0
           dw := dw
           g := g, h := h, rho := rho }

/-! ## Current profiles -/

/-- `constructSteadyCurrentGrid`, source/Waves/WaveGrid.cpp:598-616: depths and velocities of
the file, in its order. -/
def steadyGrid {K V : Type} [Zero K] [One K] [Zero V] (zs : List K) (us : List V) :
    CurrentGrid K V :=
  { px := [0], py := [0], pz := zs, nt := 1, dt := 1
    vel := [[us.map fun u => [u]]]
    acc := [[us.map fun _ => [0]]] }

section

variable {K V : Type} [Field K] [LinearOrder K] [FloorSemiring K] [AddCommGroup V] [Module K V]

/-- The loop over the times for one depth, source/Waves/WaveGrid.cpp:715-729. -/
def dynamicRow (times : List K) (row : List V) (dt : K) : ℕ → List ℕ → Option (List V)
  | _, [] => some []
  | j, it :: its => do
    let (j, f) ← interpFactor times j ((it : K) * dt)
    if j = 0 then none
    let a ← row[j - 1]?
    let b ← row[j]?
    let r ← dynamicRow times row dt j its
    return lerp a b f :: r

/-- `constructDynamicCurrentGrid`, source/Waves/WaveGrid.cpp:694-731: `rows` holds for each
depth the velocities at the times of the file.  With one time the interval is the largest
number and the indices wrap (`none`); so is the number of samples when the quotient is
negative or the smallest interval zero. -/
def dynamicGrid (zs times : List K) (rows : List (List V)) : Option (CurrentGrid K V) :=
  match minDiff times, times.getLast? with
  | some dt, some last =>
    if dt = 0 then none
    else if last / dt < 0 then none
    else
      let nt := ⌊last / dt⌋₊ + 1
      (rows.mapM fun row => dynamicRow times row dt 1 (List.range nt)).map fun v =>
        { px := [0], py := [0], pz := zs, nt := nt, dt := dt
          vel := [[v]]
          acc := [[v.map fun r => r.map fun _ => 0]] }
  | _, _ => none

end

end MD.Waves
