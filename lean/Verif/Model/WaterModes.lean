import Mathlib.Data.Int.Basic

/-!
# The `WaveKin` and `Currents` options (`Waves::setup`, source/Waves.cpp:256-508)

Which model of waves and of current the sea gets, for every pair of values. What the models answer
is in `Verif/Model/Waves.lean`. Files that cannot be read are not considered. The `assert`s of
lines 490-506 are not compiled in the default build (`CMakeLists.txt:54-57`, `RelWithDebInfo`).
-/

namespace MD.WaterModes

/-- The models of waves: `SpectrumKinWrapper`, and `WaveGrid` from a spectrum or a record of
elevations, source/Waves.cpp:363-384. -/
inductive WaveSrc
  | spectrum | fftGrid | elevationGrid
deriving DecidableEq

/-- The models of currents, source/Waves.cpp:387-477. -/
inductive CurrentSrc
  | steady | dynamic | fourD
deriving DecidableEq

/-- `waveKinematics` and `currentKinematics` at the end of `setup` (`none` is the null pointer),
and the current whose values were added to the wave grid. -/
structure Water where
  wave : Option WaveSrc
  current : Option CurrentSrc
  merged : Option CurrentSrc
deriving DecidableEq

/-- What `setup` leads to. -/
inductive Outcome
  | ok (w : Water)
  /-- `invalid_value_error`: `MoorDyn_Init` fails -/
  | refused
  /-- conversion of the number to an enumeration that has no such value, undefined since C++17 -/
  | undefined
deriving DecidableEq

/-- `true` if the checks pass, source/Waves.cpp:282-359. Line 330 repeats `WAVES_FFT_GRID` where
`WAVES_FFT_NODE` (4) is meant. -/
def accepted (w c : ℤ) : Bool :=
  if w = 0 then
    c = 1 || c = 2 || c = 3 || c = 4 || c = 5
  else if c = 0 then
    w = 1 || w = 2 || w = 3 || w = 2 || w = 5 || w = 6 || w = 7
  else true

/-- `waveGrid`, source/Waves.cpp:378-384: the grid of waves that a current may be added to. -/
def waveGrid (w : ℤ) : Option WaveSrc :=
  if w = 7 then none
  else if w = 2 then some .fftGrid
  else if w = 3 then some .elevationGrid
  else none

/-- source/Waves.cpp:388, 411, 438: the current read from its file. -/
def currentRead (c : ℤ) : Option CurrentSrc :=
  if c = 1 then some .steady
  else if c = 2 then some .dynamic
  else if c = 5 then some .fourD
  else none

/-- `Waves::setup`, source/Waves.cpp:256-508, for the values of WaveKin, Currents and
UnifyCurrentGrid; the enumerations (source/Waves/WaveOptions.hpp:9-62) have the values of three
bits. -/
def setup (w c : ℤ) (unify : Bool) : Outcome :=
  if w < 0 ∨ 7 < w ∨ c < 0 ∨ 7 < c then .undefined
  else if w = 0 ∧ c = 0 then .ok ⟨none, none, none⟩
  else if accepted w c = false then .refused
  else
    let kin : Option WaveSrc := if w = 7 then some .spectrum else none
    let grid := waveGrid w
    let (current, merged) :=
      if grid.isSome ∧ unify = true then ((none : Option CurrentSrc), currentRead c)
      else (currentRead c, none)
    .ok ⟨if grid.isSome ∧ kin.isNone then grid else kin, current, merged⟩

end MD.WaterModes
