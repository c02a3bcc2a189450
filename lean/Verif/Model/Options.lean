import Verif.Model.Reader
import Verif.Model.Scheme

/-!
# Model of the options of the input file

`readOptionsLine` and the two passes of `ReadInFile` over the options
(source/MoorDyn2.cpp), the defaults set by the constructor, the water depth changed by the
points, and the names of the files written.
-/

namespace MD.Options

open MD.Text MD.Scheme MD.Time MD.Reader

/-- What the options set.  `D`: the data of a bathymetry file. -/
structure Settings (D : Type) where
  /-- source/MoorDyn2.hpp, `dtM0`, `cfl`, `dtOut` -/
  dtM : Val
  cfl : Val
  dtOut : Val
  /-- `_t_integrator`; none: a null pointer -/
  scheme : Option (Scheme ℚ)
  /-- source/Misc.hpp, `EnvCond` -/
  g : Val
  rho : Val
  depth : Val
  kb : Val
  cb : Val
  writeUnits : ℤ
  writeLog : ℤ
  fric : Val
  fricDamp : Val
  statDyn : Val
  /-- `ICdt`, `ICTmax`, `ICDfac`, `ICthresh`, `ICgenDynamic` -/
  icDt : Val
  icTmax : Val
  icFac : Val
  icThresh : Val
  icDynamic : Bool
  /-- `WaveKinTemp` and `env->waterKinOptions` -/
  waveKin : ℤ
  dtWave : Val
  currents : ℤ
  unify : Bool
  /-- `seafloor`, and `env->SeafloorMode` (`SEAFLOOR_3D` when there is one) -/
  bed : Option D

/-- The greatest double (`std::numeric_limits<real>::max()`). -/
def maxReal : ℚ := (2 ^ 53 - 1) * 2 ^ 971

/-- The values before reading, source/MoorDyn2.cpp:79-100, 128-138 and
source/Waves/WaveOptions.hpp:91-97. -/
def defaults {D : Type} : Settings D where
  dtM := .fin maxReal
  cfl := .fin (1 / 2)
  dtOut := .fin 0
  scheme := none
  g := .fin (980665 / 100000)
  rho := .fin 1025
  depth := .fin 0
  kb := .fin 3000000
  cb := .fin 300000
  writeUnits := 1
  writeLog := 0
  fric := .fin 0
  fricDamp := .fin 200
  statDyn := .fin 1
  icDt := .fin 1
  icTmax := .fin 120
  icFac := .fin 5
  icThresh := .fin (1 / 1000)
  icDynamic := false
  waveKin := 0
  dtWave := .fin (1 / 4)
  currents := 0
  unify := true
  bed := none

/-- The exceptions that leave `readOptionsLine`. -/
inductive Stop
  | invalidArgument
  | outOfRange
  | seafloor
deriving DecidableEq

/-- `std::stof` up to the exponents a `float` cannot hold (not modelled) and up to the
rounding to a `float`. -/
def stof (s : Str) : Except Stop Val :=
  match strtold s with
  | some v => .ok v
  | none => .error .invalidArgument

/-- `std::stoi` with its exceptions. -/
def stoiE (s : Str) : Except Stop ℤ :=
  match stoi s with
  | .ok v => .ok v
  | .invalidArgument => .error .invalidArgument
  | .outOfRange => .error .outOfRange

/-- `atoi`: zero if there is no number (too great ones, undefined in C, give zero here). -/
def atoi (s : Str) : ℤ :=
  match stoi s with
  | .ok v => v
  | _ => 0

/-- The conversion of a `double` to `bool`: everything but zero is true. -/
def truth : Val → Bool
  | .fin q => q ≠ 0
  | _ => true

variable {D : Type}

/-- `readOptionsLine`, source/MoorDyn2.cpp:2093-2190, with the value and the name of the
line.  `load`: what `Seafloor::setup` gives for a path (none: an exception).  The messages
are not modelled. -/
def readOption (load : Str → Option D) (s : Settings D) (value name : Str) :
    Except Stop (Settings D) :=
  if name = "dtM".toList ∨ name = "DT".toList then .ok { s with dtM := atof value }
  else if name = "CFL".toList ∨ name = "cfl".toList then .ok { s with cfl := atof value }
  else if name = "writeLog".toList then .ok s
  else if name = "tScheme".toList then
    match create value with
    | .ok c => .ok { s with scheme := some c }
    | .invalid => .ok s
    | .outOfRange => .error .outOfRange
  else if name = "g".toList ∨ name = "gravity".toList then .ok { s with g := atof value }
  else if name = "Rho".toList ∨ name = "rho".toList ∨ name = "WtrDnsty".toList then
    .ok { s with rho := atof value }
  else if name = "WtrDpth".toList then .ok { s with depth := atof value }
  else if name = "kBot".toList ∨ name = "kbot".toList ∨ name = "kb".toList then
    .ok { s with kb := atof value }
  else if name = "cBot".toList ∨ name = "cbot".toList ∨ name = "cb".toList then
    .ok { s with cb := atof value }
  else if name = "dtIC".toList ∨ name = "ICdt".toList then .ok { s with icDt := atof value }
  else if name = "TmaxIC".toList ∨ name = "ICTmax".toList then
    .ok { s with icTmax := atof value }
  else if name = "CdScaleIC".toList ∨ name = "ICDfac".toList then
    .ok { s with icFac := atof value }
  else if name = "threshIC".toList ∨ name = "ICthresh".toList then
    .ok { s with icThresh := atof value }
  else if name = "WaveKin".toList then
    match stoiE value with
    | .ok v => .ok { s with waveKin := v }
    | .error e => .error e
  else if name = "dtWave".toList then
    match stof value with
    | .ok v => .ok { s with dtWave := v }
    | .error e => .error e
  else if name = "Currents".toList then
    match stoiE value with
    | .ok v => .ok { s with currents := v }
    | .error e => .error e
  else if name = "UnifyCurrentGrid".toList then
    if value = "1".toList then .ok { s with unify := true }
    else if value = "0".toList then .ok { s with unify := false }
    else .ok s
  else if name = "WriteUnits".toList then .ok { s with writeUnits := atoi value }
  else if name = "FrictionCoefficient".toList then .ok { s with fric := atof value }
  else if name = "FricDamp".toList then .ok { s with fricDamp := atof value }
  else if name = "StatDynFricScale".toList then .ok { s with statDyn := atof value }
  else if name = "dtOut".toList then .ok { s with dtOut := atof value }
  else if name = "SeafloorFile".toList then
    match load value with
    | some b => .ok { s with bed := some b }
    | none => .error .seafloor
  else if name = "ICgenDynamic".toList then .ok { s with icDynamic := truth (atof value) }
  else .ok s

/-- The body of the loop of the second pass, source/MoorDyn2.cpp:886-897.  The exceptions
are given the code -1 here. -/
def optionsSecond (load : Str → Option D) (s : Settings D) (l : Str) : Next (Settings D) :=
  match split ' ' l with
  | v :: n :: _ =>
    if n ≠ "writeLog".toList then
      match readOption load s v n with
      | .ok s' => .cont s'
      | .error _ => .err (-1)
    else .cont s
  | _ => .cont s

/-- What `SetupLog` does for the settings when the file of the log can be opened,
source/MoorDyn2.cpp:871-877. -/
def setupLog (s : Settings D) (v : Str) : Except ℤ (Settings D) :=
  .ok { s with writeLog := atoi v }

/-- The two passes over the options, source/MoorDyn2.cpp:856-899. -/
def readOptions (load : Str → Option D) (txt : List Str) :
    Reader.Outcome (Settings D) :=
  readSections txt
    [⟨["OPTIONS".toList], optionsFirst setupLog⟩,
     ⟨["OPTIONS".toList], optionsSecond load⟩] defaults

/-- The scheme used, source/MoorDyn2.cpp:1616-1619: the second order Runge-Kutta scheme if
none has been made. -/
def usedScheme (s : Settings D) : Scheme ℚ := s.scheme.getD .rk2

section
variable {K : Type} [LinearOrder K] [Neg K]

/-- The water depth after a point of the list with the height `z`,
source/MoorDyn2.cpp:1073-1077 (whatever the type of the point; the height of a point of a
body is relative to the body). -/
def deepen (depth z : K) : K := if z < -depth then -z else depth

/-- The water depth after the list of points, source/MoorDyn2.cpp:977-1100. -/
def deepened (depth : K) (zs : List K) : K := zs.foldl deepen depth

end

/-! ## Names of the files -/

/-- `find_last_of(chars)` : the index of the last character of `s` that satisfies `p`. -/
def findLast (p : Char → Bool) (s : Str) : Option ℕ :=
  match s.reverse.findIdx? p with
  | some i => some (s.length - 1 - i)
  | none => none

/-- The difference of two `std::size_t`. -/
def subSize (a b : ℕ) : ℕ := (2 ^ 64 + a - b) % 2 ^ 64

/-- `npos` for no index. -/
def npos : ℕ := 2 ^ 64 - 1

/-- `substr(pos, n)`; the exception for a position beyond the end is `none`. -/
def substr (s : Str) (pos n : ℕ) : Option Str :=
  if s.length < pos then none else some ((s.drop pos).take n)

/-- The path and the name taken from the path of the input file,
source/MoorDyn2.cpp:104-110. -/
def splitPath (path : Str) : Option (Str × Str) :=
  let slash := (findLast (fun c => c = '/' ∨ c = '\\') path).getD npos
  let dot := (findLast (fun c => c = '.') path).getD npos
  let after := (slash + 1) % 2 ^ 64
  match substr path after (subSize (subSize dot slash) 1), substr path 0 after with
  | some base, some dir => some (dir, base)
  | _, _ => none

/-- The files written, source/MoorDyn2.cpp:577, 1161, 1931, 2054 and
source/MoorDyn2.hpp:661.  `n`: the number printed. -/
inductive OutFile
  | main | log
  | line (n : Str) | body (n : Str) | rod (n : Str)
deriving DecidableEq

/-- The end of the name of a file. -/
def OutFile.suffix : OutFile → Str
  | .main => ".out".toList
  | .log => ".log".toList
  | .line n => "_Line".toList ++ n ++ ".out".toList
  | .body n => "_Body".toList ++ n ++ ".out".toList
  | .rod n => "_Rod".toList ++ n ++ ".out".toList

/-- The path of a file written for an input file. -/
def outPath (input : Str) (f : OutFile) : Option Str :=
  match splitPath input with
  | some (dir, base) => some (dir ++ base ++ f.suffix)
  | none => none

end MD.Options
