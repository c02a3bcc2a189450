import Verif.Model.Text

/-!
# Model of the log

`MultiStream` and `Log` of source/Log.cpp, source/Log.hpp, and the option `writeLog`.
Streams are the lists of pieces inserted into them; the file system is a map from paths to
contents, whether a path can be opened is given with each attempt. Buffering and failures of
writing are not modelled.
-/

namespace MD.Log

open MD.Text (Str)

/-- Levels, source/MoorDynAPI.h:120-128. -/
def ERR : ℤ := 3
def WRN : ℤ := 2
def MSG : ℤ := 1
def DBG : ℤ := 0
def NO_OUTPUT : ℤ := 4096

/-- The stream `_terminal` points to, source/Log.cpp:54-76. -/
inductive Terminal
  | null | out | err
  deriving DecidableEq

/-- The log handler with its streamer (source/Log.hpp:120-130, 219-225): the levels, the open
file (`_fout`), `_fpath`, `_fout_enabled` and `_terminal`; and the world: what was written to
the standard output, to the standard error and to the files. -/
structure State where
  verbosity : ℤ
  fileLevel : ℤ
  file : Option Str
  path : Str
  enabled : Bool
  terminal : Terminal
  out : List Str
  err : List Str
  files : Str → List Str

/-- Constructors, source/Log.cpp:78-83, 102-110 and the default arguments
source/Log.hpp:157-158. -/
def init (files : Str → List Str) : State :=
  ⟨MSG, DBG, none, [], false, .null, [], [], files⟩

/-- Insertion into the file if it is enabled and open, source/Log.hpp:136-137. -/
def putFile (s : State) (piece : Str) : State :=
  match s.enabled, s.file with
  | true, some p => { s with files := Function.update s.files p (s.files p ++ [piece]) }
  | _, _ => s

/-- Insertion into the terminal, source/Log.hpp:138. -/
def putTerminal (s : State) (piece : Str) : State :=
  match s.terminal with
  | .null => s
  | .out => { s with out := s.out ++ [piece] }
  | .err => { s with err := s.err ++ [piece] }

/-- `operator<<`, source/Log.hpp:130-140 (and 110-118 for manipulators). -/
def put (s : State) (piece : Str) : State := putTerminal (putFile s piece) piece

/-- `Log::Cout`, source/Log.cpp:117-133. -/
def cout (s : State) (level : ℤ) : State :=
  let s := { s with terminal :=
    if level < s.verbosity then .null else if level ≥ ERR then .err else .out }
  { s with enabled := if level < s.fileLevel then false else true }

/-- A logged message: `Cout(level) << piece << piece ...`; `MoorDyn_Log` has one piece,
source/MoorDyn2.cpp:2385-2390. -/
def message (s : State) (level : ℤ) (pieces : List Str) : State :=
  pieces.foldl put (cout s level)

/-- `MultiStream::SetFile`, source/Log.cpp:91-100 (`Log::SetFile`, 147-156): the open file is
closed, the new one is truncated by opening it. The second component tells whether the
exception `output_file_error` was thrown. -/
def setFile (s : State) (p : Str) (opens : Bool) : State × Bool :=
  let s := { s with file := none }
  if opens then
    ({ s with file := some p, path := p, files := Function.update s.files p [] }, false)
  else (s, true)

/-- `SetupLog`, source/MoorDyn2.hpp:644-678, with the path `p` of the log beside the input
file. Its own messages are left out here. The last component tells whether an error is
returned. (`3 - writeLog` overflows for the integers below 4 - 2^31, which is not
modelled.) -/
def setupLog (s : State) (writeLog : ℤ) (p : Str) (opens : Bool) : State × Bool :=
  let level := ERR - writeLog
  let level := if level ≥ ERR then NO_OUTPUT else level
  let level := if level < DBG then DBG else level
  let s := { s with fileLevel := level }
  if writeLog > 0 then setFile s p opens else (s, false)

/-- What may happen to the log. -/
inductive Op
  /-- `MoorDyn_SetVerbosity`, source/MoorDyn2.cpp:2361-2367. -/
  | verbosity (v : ℤ)
  /-- `MoorDyn_SetLogLevel`, source/MoorDyn2.cpp:2377-2383. -/
  | level (l : ℤ)
  /-- `MoorDyn_SetLogFile`, source/MoorDyn2.cpp:2369-2375. -/
  | file (p : Str) (opens : Bool)
  /-- Any message. -/
  | message (level : ℤ) (pieces : List Str)
  deriving DecidableEq

def step (s : State) : Op → State
  | .verbosity v => { s with verbosity := v }
  | .level l => { s with fileLevel := l }
  | .file p opens => (setFile s p opens).1
  | .message l ps => message s l ps

def run (s : State) (ops : List Op) : State := ops.foldl step s

end MD.Log
