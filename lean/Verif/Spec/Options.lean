import Verif.Model.Options

/-!
# The options as they are documented (docs/inputs.rst:545-597)

Names, defaults and meaning of the options, independently of the way they are read.
-/

namespace MD.Options

open MD.Text MD.Scheme MD.Time

/-- The documented options. -/
inductive Opt
  | writeLog | dtM | cfl | tScheme | g | rho | depth | kBot | cBot
  | dtIC | tmaxIC | cdScaleIC | threshIC | waveKin | dtWave | currents | unify
  | writeUnits | fric | fricDamp | statDyn | dtOut | seafloorFile | icGenDynamic
deriving DecidableEq

/-- The documented name. -/
def Opt.docName : Opt → String
  | .writeLog => "writeLog"
  | .dtM => "dtM"
  | .cfl => "CFL"
  | .tScheme => "tScheme"
  | .g => "g"
  | .rho => "rho"
  | .depth => "WtrDpth"
  | .kBot => "kBot"
  | .cBot => "cBot"
  | .dtIC => "dtIC"
  | .tmaxIC => "TmaxIC"
  | .cdScaleIC => "CdScaleIC"
  | .threshIC => "threshIC"
  | .waveKin => "WaveKin"
  | .dtWave => "dtWave"
  | .currents => "Currents"
  | .unify => "UnifyCurrentGrid"
  | .writeUnits => "WriteUnits"
  | .fric => "FrictionCoefficient"
  | .fricDamp => "FricDamp"
  | .statDyn => "StatDynFricScale"
  | .dtOut => "dtOut"
  | .seafloorFile => "SeafloorFile"
  | .icGenDynamic => "ICgenDynamic"

/-- The other names in use (older input files). -/
def Opt.others : Opt → List String
  | .dtM => ["DT"]
  | .cfl => ["cfl"]
  | .g => ["gravity"]
  | .rho => ["Rho", "WtrDnsty"]
  | .kBot => ["kbot", "kb"]
  | .cBot => ["cbot", "cb"]
  | .dtIC => ["ICdt"]
  | .tmaxIC => ["ICTmax"]
  | .cdScaleIC => ["ICDfac"]
  | .threshIC => ["ICthresh"]
  | _ => []

/-- All names of an option. -/
def Opt.names (x : Opt) : List Str := (x.docName :: x.others).map String.toList

/-- The value of an option. -/
inductive OptVal (D : Type)
  | num (v : Val)
  | int (i : ℤ)
  | flag (b : Bool)
  | scheme (s : Scheme ℚ)
  | bed (d : Option D)

variable {D : Type}

/-- The value an option has in the settings. -/
def Settings.view (s : Settings D) : Opt → OptVal D
  | .writeLog => .int s.writeLog
  | .dtM => .num s.dtM
  | .cfl => .num s.cfl
  | .tScheme => .scheme (usedScheme s)
  | .g => .num s.g
  | .rho => .num s.rho
  | .depth => .num s.depth
  | .kBot => .num s.kb
  | .cBot => .num s.cb
  | .dtIC => .num s.icDt
  | .tmaxIC => .num s.icTmax
  | .cdScaleIC => .num s.icFac
  | .threshIC => .num s.icThresh
  | .waveKin => .int s.waveKin
  | .dtWave => .num s.dtWave
  | .currents => .int s.currents
  | .unify => .flag s.unify
  | .writeUnits => .int s.writeUnits
  | .fric => .num s.fric
  | .fricDamp => .num s.fricDamp
  | .statDyn => .num s.statDyn
  | .dtOut => .num s.dtOut
  | .seafloorFile => .bed s.bed
  | .icGenDynamic => .flag s.icDynamic

/-- How a value is written. -/
inductive Kind
  | number | whole | zeroOne | nonZero | schemeName | path

/-- How the value of an option is written. -/
def Opt.kind : Opt → Kind
  | .writeLog | .waveKin | .currents | .writeUnits => .whole
  | .unify => .zeroOne
  | .icGenDynamic => .nonZero
  | .tScheme => .schemeName
  | .seafloorFile => .path
  | _ => .number

/-- The meaning of a value; none: it has none (not a number, no such scheme, a file that
cannot be read). -/
def meaning (load : Str → Option D) (x : Opt) (v : Str) : Option (OptVal D) :=
  match x.kind with
  | .number => (strtold v).map .num
  | .whole => match stoi v with
    | .ok i => some (.int i)
    | _ => none
  | .zeroOne =>
    if v = ['0'] then some (.flag false) else if v = ['1'] then some (.flag true) else none
  | .nonZero => (strtold v).map fun a => .flag (decide (a ≠ .fin 0))
  | .schemeName => match create v with
    | .ok s => some (.scheme s)
    | _ => none
  | .path => (load v).map fun d => .bed (some d)

/-- The documented defaults. -/
def docDefault : Opt → OptVal D
  | .writeLog => .int 0
  | .dtM => .num (.fin (3402823 * 10 ^ 32))
  | .cfl => .num (.fin 0.5)
  | .tScheme => .scheme .rk2
  | .g => .num (.fin 9.81)
  | .rho => .num (.fin 1025)
  | .depth => .num (.fin 0)
  | .kBot => .num (.fin 3.0e6)
  | .cBot => .num (.fin 3.0e5)
  | .dtIC => .num (.fin 1)
  | .tmaxIC => .num (.fin 120)
  | .cdScaleIC => .num (.fin 5)
  | .threshIC => .num (.fin 0.001)
  | .waveKin => .int 0
  | .dtWave => .num (.fin 0.25)
  | .currents => .int 0
  | .unify => .flag true
  | .writeUnits => .int 1
  | .fric => .num (.fin 0)
  | .fricDamp => .num (.fin 200)
  | .statDyn => .num (.fin 1)
  | .dtOut => .num (.fin 0)
  | .seafloorFile => .bed none
  | .icGenDynamic => .flag false

/-- The value a line of the section gives to an option, if it is about that option: the
value first, then the name, then anything. -/
def given (load : Str → Option D) (x : Opt) (l : Str) : Option (OptVal D) :=
  match split ' ' l with
  | v :: n :: _ => if n ∈ x.names then meaning load x v else none
  | _ => none

/-- The lines about an option. -/
def about (x : Opt) (l : Str) : Bool :=
  match split ' ' l with
  | _ :: n :: _ => n ∈ x.names
  | _ => false

/-- The header of the section of the options. -/
def isHeader (l : Str) : Bool :=
  contains l "---".toList && contains (upper l) "OPTIONS".toList

end MD.Options
