import Verif.Model.Text
import Verif.Model.Scheme
import Verif.Model.Options
import Verif.Model.Waves

/-!
# Model of the reading of the files that describe the sea

`wave_frequencies.txt`, `wave_elevation.txt`, `water_grid.txt`, `current_profile.txt`,
`current_profile_dynamic.txt` and `current_profile_4d.txt`: from the text to the numbers.  What is
made of the numbers is in `WaveFFT` and `Waves`.  Numbers are converted exactly (`MD.Text.strtold`);
the depths of the dynamic profile, which `stof` rounds to single precision, are exact here too.
-/

namespace MD.SeaFiles

open MD.Text

/-- How reading can end: `input_file_error`, `invalid_value_error`, an exception of the standard
library, or undefined behaviour (reading outside a vector). -/
inductive Err
  | input | value | std | undef
deriving DecidableEq

/-- `fileIO::fileToLines`, source/Misc.cpp:149-163: the lines without the blanks at their end. -/
def lines (txt : Str) : List Str := (fileLines txt).map rtrim

/-- A file that is opened, source/Misc.cpp:163-168. -/
def load (fs : Str → Option Str) (path : Str) : Except Err (List Str) :=
  match fs path with
  | some txt => .ok (lines txt)
  | none => .error .input

/-- The file with the given name for the files in a folder, source/Waves.cpp:364,
source/Waves/WaveGrid.cpp:358, 394, 416, 548 and 623. -/
def pathIn (folder name : Str) : Str := folder ++ '/' :: name

/-- The path of the file of currents in space and time, source/Waves/WaveGrid.cpp:740: without the
slash. -/
def path4D (folder : Str) : Str := folder ++ "current_profile_4d.txt".toList

/-- `std::stod`. -/
def stod (w : Str) : Except Err Val :=
  match strtold w with
  | some v => .ok v
  | none => .error .std

/-- Twice the `double` nearest to π. -/
def twoPi : ℚ := 2 * (884279719003555 / 281474976710656)

/-- `beta > 2 * pi || beta < -2 * pi`: false for a NaN. -/
def beyond : Val → Bool
  | .fin q => twoPi < q || q < -twoPi
  | .inf _ => true
  | .nan => false

/-- One line of `wave_frequencies.txt`, source/Waves/WaveSpectrum.cpp:97-126: frequency, real part,
imaginary part and direction; the exceptions of the conversions are caught. -/
def spectrumRow (l : Str) : Except Err (Val × Val × Val × Val) :=
  let e := splitBlank l
  match e with
  | e0 :: e1 :: e2 :: rest =>
    let beta := match rest with
      | [b] => strtold b
      | _ => some (.fin 0)
    match strtold e0, strtold e1, strtold e2, beta with
    | some w, some r, some i, some b => if beyond b then .error .input else .ok (w, r, i, b)
    | _, _, _, _ => .error .input
  | _ => .error .input

/-- `spectrumFromFile`, source/Waves/WaveSpectrum.cpp:72-128. -/
def spectrumFile (ls : List Str) : Except Err (List (Val × Val × Val × Val)) :=
  if ls.length < 2 then .error .input else ls.mapM spectrumRow

/-- The spectrum of a simulation, source/Waves.cpp:363-374 and
source/Waves/WaveGrid.cpp:358-371: the first frequency must be zero. -/
def spectrum (fs : Str → Option Str) (folder : Str) :
    Except Err (List (Val × Val × Val × Val)) := do
  let ls ← load fs (pathIn folder "wave_frequencies.txt".toList)
  let rows ← spectrumFile ls
  match rows with
  | (w, _) :: _ => if w = .fin 0 then .ok rows else .error .value
  | [] => .error .undef

/-- One line of `wave_elevation.txt`, source/Waves/WaveGrid.cpp:434-443. -/
def elevationRow (l : Str) : Except Err (Val × Val) := do
  match splitBlank l with
  | e0 :: e1 :: _ =>
    let t ← stod e0
    let z ← stod e1
    return (t, z)
  | _ => .error .input

/-- `constructWaveGridElevationData`, source/Waves/WaveGrid.cpp:414-452, until the last time is
asked for. -/
def elevation (fs : Str → Option Str) (folder : Str) : Except Err (List (Val × Val)) := do
  let ls ← load fs (pathIn folder "wave_elevation.txt".toList)
  let rows ← ls.mapM elevationRow
  if rows = [] then .error .undef else .ok rows

/-- One line of `current_profile.txt`, source/Waves/WaveGrid.cpp:576-595: height and velocity. -/
def steadyRow (l : Str) : Except Err (Val × Val × Val × Val) := do
  let e := splitBlank l
  match e with
  | e0 :: e1 :: rest =>
    let z ← stod e0
    let ux ← stod e1
    let uy ← match rest[0]? with
      | some w => stod w
      | none => pure (Val.fin 0)
    let uz ← match rest[1]? with
      | some w => stod w
      | none => pure (Val.fin 0)
    return (z, ux, uy, uz)
  | _ => .error .input

/-- `constructSteadyCurrentGrid`, source/Waves/WaveGrid.cpp:548-596. -/
def steady (fs : Str → Option Str) (folder : Str) : Except Err (List (Val × Val × Val × Val)) := do
  let ls ← load fs (pathIn folder "current_profile.txt".toList)
  if ls.length < 4 then .error .input else (ls.drop 3).mapM steadyRow

/-- The velocities along one axis in a line of `current_profile_dynamic.txt`: those of the axis
`k`, or zeros if the line is too short for it. -/
def component (nz k : ℕ) (e : List Str) : Except Err (List Val) :=
  if (k + 1) * nz + 1 ≤ e.length then ((e.drop (k * nz + 1)).take nz).mapM stod
  else pure (List.replicate nz (Val.fin 0))

/-- One line of `current_profile_dynamic.txt`, source/Waves/WaveGrid.cpp:662-690: the time and the
velocities along the three axes at the depths. -/
def dynamicRow (nz : ℕ) (l : Str) : Except Err (Val × List Val × List Val × List Val) := do
  let e := splitBlank l
  match e with
  | e0 :: _ =>
    if e.length ≤ nz then .error .input
    else
      let t ← stod e0
      let ux ← component nz 0 e
      let uy ← component nz 1 e
      let uz ← component nz 2 e
      return (t, ux, uy, uz)
  | [] => .error .input

/-- `constructDynamicCurrentGrid`, source/Waves/WaveGrid.cpp:623-691; the exception for a grid
without depths is that of `allocateKinematicArrays`. -/
def dynamic (fs : Str → Option Str) (folder : Str) :
    Except Err (List Val × List (Val × List Val × List Val × List Val)) := do
  let ls ← load fs (pathIn folder "current_profile_dynamic.txt".toList)
  if ls.length < 7 then .error .input
  else
    let zs ← (splitBlank (ls.getD 4 [])).mapM stod
    let rows ← (ls.drop 6).mapM (dynamicRow zs.length)
    if zs = [] then .error .value else .ok (zs, rows)

/-- `std::stoul` and the conversion to `unsigned int`. -/
def stoul (s : Str) : Except Err ℕ :=
  let (neg, r) := sign (s.dropWhile isSpace)
  let ds := r.takeWhile isDigit
  if ds.isEmpty then .error .std
  else if 2 ^ 64 ≤ natOf ds then .error .std
  else .ok ((if neg then 2 ^ 64 - natOf ds else natOf ds) % 2 ^ 32)

/-- An axis of the grid of waves. -/
inductive Axis
  | single
  | list (xs : List Val)
  | lattice (first last : Val) (n : ℕ)
deriving DecidableEq

/-- `gridAxisCoords`, source/Waves.cpp:68-101, as a description: the coordinates of a lattice are
`MD.Waves.lattice`.  An empty list is refused by the caller. -/
def axis (code : ℤ) (e : List Str) : Except Err Axis :=
  if code = 0 then .ok .single
  else if code = 1 then if e = [] then .error .value else .ok (.list (e.map atof))
  else if code = 2 then
    match e with
    | e0 :: e1 :: e2 :: _ => do
      let n ← stoul e2
      return .lattice (atof e0) (atof e1) n
    | _ => .error .undef
  else .error .value

/-- The two lines of an axis, source/Waves/WaveGrid.cpp:316-325. -/
def axisLines (l1 l2 : Str) : Except Err Axis :=
  match splitBlank l1 with
  | [] => .error .undef
  | w :: _ =>
    match Scheme.stoi w with
    | .ok code => axis code (splitBlank l2)
    | _ => .error .std

/-- `rectilinearGridFromFile`, source/Waves/WaveGrid.cpp:293-351. -/
def waterGrid (fs : Str → Option Str) (folder : Str) : Except Err (Axis × Axis × Axis) := do
  let ls ← load fs (pathIn folder "water_grid.txt".toList)
  if ls.length < 9 then .error .input
  else
    let x ← axisLines (ls.getD 3 []) (ls.getD 4 [])
    let y ← axisLines (ls.getD 5 []) (ls.getD 6 [])
    let z ← axisLines (ls.getD 7 []) (ls.getD 8 [])
    return (x, y, z)

/-- One axis of `current_profile_4d.txt`, source/Waves/WaveGrid.cpp:787-809: `n` words, kept as
text, which must be numbers. -/
def axis4D (n : ℕ) (l : Str) : Except Err (List Str) := do
  let e := splitBlank l
  if e.length < n then .error .undef
  else
    let _ ← (e.take n).mapM stod
    return e.take n

/-- One data line of `current_profile_4d.txt`, source/Waves/WaveGrid.cpp:831-844. -/
def row4D (l : Str) : Except Err (Waves.Row4 Str (Val × Val × Val)) := do
  match splitBlank l with
  | x :: y :: z :: t :: u :: v :: w :: _ =>
    let u ← stod u
    let v ← stod v
    let w ← stod w
    return ⟨x, y, z, t, (u, v, w)⟩
  | _ => .error .undef

/-- `construct4DCurrentGrid`, source/Waves/WaveGrid.cpp:740-844: the axes and the velocities at their
indices.  An axis without coordinates makes the first assignment undefined. -/
def current4D (fs : Str → Option Str) (folder : Str) :
    Except Err ((List Str × List Str × List Str × List Str) × Waves.Grid4 (Val × Val × Val)) := do
  let ls ← load fs (path4D folder)
  if ls.length < 7 then .error .input
  else
    match splitBlank (ls.getD 0 []) with
    | a :: b :: c :: d :: _ =>
      let nx ← stoul a
      let ny ← stoul b
      let nz ← stoul c
      let nt ← stoul d
      let xs ← axis4D nx (ls.getD 1 [])
      let ys ← axis4D ny (ls.getD 2 [])
      let zs ← axis4D nz (ls.getD 3 [])
      let ts ← axis4D nt (ls.getD 4 [])
      if ls.length < (nx * ny * nz * nt) % 2 ^ 32 + 5 then .error .input
      else
        let rows ← (ls.drop 6).mapM row4D
        if nx * ny * nz * nt = 0 then .error .undef
        else
          return ((xs, ys, zs, ts), rows.foldl (Waves.setRow xs ys zs ts)
            (fun _ _ _ _ => (.fin 0, .fin 0, .fin 0)))
    | _ => .error .undef

end MD.SeaFiles
