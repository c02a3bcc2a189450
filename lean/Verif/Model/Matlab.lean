import Mathlib.Data.Rat.Defs
import Mathlib.Data.List.Basic

/-!
# The MATLAB functions

wrappers/matlab/MoorDynM_*.cpp: one function of MATLAB for each function of the library.  Every one of them
but `MoorDynM_Create` is written with the macros of wrappers/matlab/moordyn_matlab.h:66-137.  Here: what each
one reads from its inputs, which function of the library it calls with what, and what it returns; and what
the macros make of it.
-/

namespace MD.Matlab

/-- Arrays of MATLAB: numbers of type `uint64` (handles), of type `double`, characters. -/
inductive Arr | u64 (v : List ℕ) | nums (v : List ℚ) | chars (s : String)
  deriving DecidableEq, Repr

/-- Where an argument of the call comes from: the handle of the first input; an unsigned or signed whole
number, a number, a handle, the address of a number, an array of numbers, characters of input `k`; the
address of a place for `n` values; the address of a place for as many numbers as input `k` has. -/
inductive Src
  | inst | nat (k : ℕ) | int (k : ℕ) | dbl (k : ℕ) | hdl (k : ℕ) | ref (k : ℕ) | vec (k : ℕ) | chars (k : ℕ)
  | room (n : ℕ) | like (k : ℕ)
  deriving DecidableEq, Repr

/-- How the end of the call is judged: by the code returned, by the address returned being zero, not. -/
inductive End | code | null | none
  deriving DecidableEq, Repr

/-- What an output is: the address returned; the address, the number, the numbers left by argument `j`; the
numbers left by argument `j` as a matrix of `n` by `n`. -/
inductive Out | ret | addr (j : ℕ) | scal (j : ℕ) | row (j : ℕ) | square (n j : ℕ)
  deriving DecidableEq, Repr

/-- A function of MATLAB: its name, the function of the library it calls, the numbers of inputs and outputs,
the arguments of the call, its end, the outputs. -/
structure Fn where
  name : String
  calls : String
  nIn : ℕ
  nOut : ℕ
  args : List Src
  ending : End
  outs : List Out
  deriving DecidableEq, Repr

/-- wrappers/matlab/MoorDynM_*.cpp; file and lines of each one are beside its entry.  Not here:
`MoorDynM_Create` and `MoorDynM_ExternalWaveKinGetCoordinates`, which are `create` and `coordinates` below. -/
def wrappers : List Fn :=
  [⟨"MoorDynM_Close", "MoorDyn_Close", 1, 0, [.inst], .code, []⟩ /- wrappers/matlab/MoorDynM_Close.cpp:40-45 -/,
   ⟨"MoorDynM_ExternalWaveKinGetN", "MoorDyn_ExternalWaveKinGetN", 1, 1, [.inst, .room 1], .code, [.scal 1]⟩ /- wrappers/matlab/MoorDynM_ExternalWaveKinGetN.cpp:40-47 -/,
   ⟨"MoorDynM_ExternalWaveKinInit", "MoorDyn_ExternalWaveKinInit", 1, 1, [.inst, .room 1], .code, [.scal 1]⟩ /- wrappers/matlab/MoorDynM_ExternalWaveKinInit.cpp:40-47 -/,
   ⟨"MoorDynM_ExternalWaveKinSet", "MoorDyn_ExternalWaveKinSet", 4, 0, [.inst, .vec 1, .vec 2, .dbl 3], .code, []⟩ /- wrappers/matlab/MoorDynM_ExternalWaveKinSet.cpp:40-52 -/,
   ⟨"MoorDynM_GetAverageDepth", "MoorDyn_GetAverageDepth", 1, 1, [.inst, .room 1], .code, [.scal 1]⟩ /- wrappers/matlab/MoorDynM_GetAverageDepth.cpp:40-47 -/,
   ⟨"MoorDynM_GetBody", "MoorDyn_GetBody", 2, 1, [.inst, .nat 1], .null, [.ret]⟩ /- wrappers/matlab/MoorDynM_GetBody.cpp:40-52 -/,
   ⟨"MoorDynM_GetBodyAngVel", "MoorDyn_GetBodyAngVel", 1, 1, [.inst, .room 3], .code, [.row 1]⟩ /- wrappers/matlab/MoorDynM_GetBodyAngVel.cpp:40-49 -/,
   ⟨"MoorDynM_GetBodyAngle", "MoorDyn_GetBodyAngle", 1, 1, [.inst, .room 3], .code, [.row 1]⟩ /- wrappers/matlab/MoorDynM_GetBodyAngle.cpp:40-49 -/,
   ⟨"MoorDynM_GetBodyForce", "MoorDyn_GetBodyForce", 1, 1, [.inst, .room 6], .code, [.row 1]⟩ /- wrappers/matlab/MoorDynM_GetBodyForce.cpp:40-49 -/,
   ⟨"MoorDynM_GetBodyID", "MoorDyn_GetBodyID", 1, 1, [.inst, .room 1], .code, [.scal 1]⟩ /- wrappers/matlab/MoorDynM_GetBodyID.cpp:40-47 -/,
   ⟨"MoorDynM_GetBodyM", "MoorDyn_GetBodyM", 1, 1, [.inst, .room 36], .code, [.square 6 1]⟩ /- wrappers/matlab/MoorDynM_GetBodyM.cpp:40-49 -/,
   ⟨"MoorDynM_GetBodyPos", "MoorDyn_GetBodyPos", 1, 1, [.inst, .room 3], .code, [.row 1]⟩ /- wrappers/matlab/MoorDynM_GetBodyPos.cpp:40-49 -/,
   ⟨"MoorDynM_GetBodyState", "MoorDyn_GetBodyState", 1, 2, [.inst, .room 6, .room 6], .code, [.row 1, .row 2]⟩ /- wrappers/matlab/MoorDynM_GetBodyState.cpp:40-52 -/,
   ⟨"MoorDynM_GetBodyType", "MoorDyn_GetBodyType", 1, 1, [.inst, .room 1], .code, [.scal 1]⟩ /- wrappers/matlab/MoorDynM_GetBodyType.cpp:40-47 -/,
   ⟨"MoorDynM_GetBodyVel", "MoorDyn_GetBodyVel", 1, 1, [.inst, .room 3], .code, [.row 1]⟩ /- wrappers/matlab/MoorDynM_GetBodyVel.cpp:40-49 -/,
   ⟨"MoorDynM_GetDepthAt", "MoorDyn_GetDepthAt", 3, 1, [.inst, .dbl 1, .dbl 2, .room 1], .code, [.scal 3]⟩ /- wrappers/matlab/MoorDynM_GetDepthAt.cpp:40-49 -/,
   ⟨"MoorDynM_GetLine", "MoorDyn_GetLine", 2, 1, [.inst, .nat 1], .null, [.ret]⟩ /- wrappers/matlab/MoorDynM_GetLine.cpp:40-52 -/,
   ⟨"MoorDynM_GetLineConstantEA", "MoorDyn_GetLineConstantEA", 1, 1, [.inst, .room 1], .code, [.scal 1]⟩ /- wrappers/matlab/MoorDynM_GetLineConstantEA.cpp:40-47 -/,
   ⟨"MoorDynM_GetLineFairTen", "MoorDyn_GetLineFairTen", 1, 1, [.inst, .room 1], .code, [.scal 1]⟩ /- wrappers/matlab/MoorDynM_GetLineFairTen.cpp:40-48 -/,
   ⟨"MoorDynM_GetLineID", "MoorDyn_GetLineID", 1, 1, [.inst, .room 1], .code, [.scal 1]⟩ /- wrappers/matlab/MoorDynM_GetLineID.cpp:40-47 -/,
   ⟨"MoorDynM_GetLineMaxTen", "MoorDyn_GetLineMaxTen", 1, 1, [.inst, .room 1], .code, [.scal 1]⟩ /- wrappers/matlab/MoorDynM_GetLineMaxTen.cpp:40-48 -/,
   ⟨"MoorDynM_GetLineN", "MoorDyn_GetLineN", 1, 1, [.inst, .room 1], .code, [.scal 1]⟩ /- wrappers/matlab/MoorDynM_GetLineN.cpp:40-47 -/,
   ⟨"MoorDynM_GetLineNodeBendStiff", "MoorDyn_GetLineNodeBendStiff", 2, 1, [.inst, .nat 1, .room 3], .code, [.row 2]⟩ /- wrappers/matlab/MoorDynM_GetLineNodeBendStiff.cpp:40-50 -/,
   ⟨"MoorDynM_GetLineNodeCurv", "MoorDyn_GetLineNodeCurv", 2, 1, [.inst, .nat 1, .room 1], .code, [.scal 2]⟩ /- wrappers/matlab/MoorDynM_GetLineNodeCurv.cpp:40-49 -/,
   ⟨"MoorDynM_GetLineNodeDrag", "MoorDyn_GetLineNodeDrag", 2, 1, [.inst, .nat 1, .room 3], .code, [.row 2]⟩ /- wrappers/matlab/MoorDynM_GetLineNodeDrag.cpp:40-50 -/,
   ⟨"MoorDynM_GetLineNodeForce", "MoorDyn_GetLineNodeForce", 2, 1, [.inst, .nat 1, .room 3], .code, [.row 2]⟩ /- wrappers/matlab/MoorDynM_GetLineNodeForce.cpp:40-50 -/,
   ⟨"MoorDynM_GetLineNodeFroudeKrilov", "MoorDyn_GetLineNodeFroudeKrilov", 2, 1, [.inst, .nat 1, .room 3], .code, [.row 2]⟩ /- wrappers/matlab/MoorDynM_GetLineNodeFroudeKrilov.cpp:40-50 -/,
   ⟨"MoorDynM_GetLineNodeM", "MoorDyn_GetLineNodeM", 2, 1, [.inst, .nat 1, .room 9], .code, [.square 3 2]⟩ /- wrappers/matlab/MoorDynM_GetLineNodeM.cpp:40-50 -/,
   ⟨"MoorDynM_GetLineNodePos", "MoorDyn_GetLineNodePos", 2, 1, [.inst, .nat 1, .room 3], .code, [.row 2]⟩ /- wrappers/matlab/MoorDynM_GetLineNodePos.cpp:40-50 -/,
   ⟨"MoorDynM_GetLineNodeSeabedForce", "MoorDyn_GetLineNodeSeabedForce", 2, 1, [.inst, .nat 1, .room 3], .code, [.row 2]⟩ /- wrappers/matlab/MoorDynM_GetLineNodeSeabedForce.cpp:40-50 -/,
   ⟨"MoorDynM_GetLineNodeTen", "MoorDyn_GetLineNodeTen", 2, 1, [.inst, .nat 1, .room 3], .code, [.row 2]⟩ /- wrappers/matlab/MoorDynM_GetLineNodeTen.cpp:40-50 -/,
   ⟨"MoorDynM_GetLineNodeVel", "MoorDyn_GetLineNodeVel", 2, 1, [.inst, .nat 1, .room 3], .code, [.row 2]⟩ /- wrappers/matlab/MoorDynM_GetLineNodeVel.cpp:40-50 -/,
   ⟨"MoorDynM_GetLineNodeWeight", "MoorDyn_GetLineNodeWeight", 2, 1, [.inst, .nat 1, .room 3], .code, [.row 2]⟩ /- wrappers/matlab/MoorDynM_GetLineNodeWeight.cpp:40-50 -/,
   ⟨"MoorDynM_GetLineNumberNodes", "MoorDyn_GetLineNumberNodes", 1, 1, [.inst, .room 1], .code, [.scal 1]⟩ /- wrappers/matlab/MoorDynM_GetLineNumberNodes.cpp:40-47 -/,
   ⟨"MoorDynM_GetLineUnstrechedLength", "MoorDyn_GetLineUnstretchedLength", 1, 1, [.inst, .room 1], .code, [.scal 1]⟩ /- wrappers/matlab/MoorDynM_GetLineUnstrechedLength.cpp:40-47 -/,
   ⟨"MoorDynM_GetMinDepth", "MoorDyn_GetMinDepth", 1, 1, [.inst, .room 1], .code, [.scal 1]⟩ /- wrappers/matlab/MoorDynM_GetMinDepth.cpp:40-47 -/,
   ⟨"MoorDynM_GetNumberBodies", "MoorDyn_GetNumberBodies", 1, 1, [.inst, .room 1], .code, [.scal 1]⟩ /- wrappers/matlab/MoorDynM_GetNumberBodies.cpp:40-47 -/,
   ⟨"MoorDynM_GetNumberLines", "MoorDyn_GetNumberLines", 1, 1, [.inst, .room 1], .code, [.scal 1]⟩ /- wrappers/matlab/MoorDynM_GetNumberLines.cpp:40-47 -/,
   ⟨"MoorDynM_GetNumberPoints", "MoorDyn_GetNumberPoints", 1, 1, [.inst, .room 1], .code, [.scal 1]⟩ /- wrappers/matlab/MoorDynM_GetNumberPoints.cpp:40-47 -/,
   ⟨"MoorDynM_GetNumberRods", "MoorDyn_GetNumberRods", 1, 1, [.inst, .room 1], .code, [.scal 1]⟩ /- wrappers/matlab/MoorDynM_GetNumberRods.cpp:40-47 -/,
   ⟨"MoorDynM_GetPoint", "MoorDyn_GetPoint", 2, 1, [.inst, .nat 1], .null, [.ret]⟩ /- wrappers/matlab/MoorDynM_GetPoint.cpp:40-52 -/,
   ⟨"MoorDynM_GetPointAttached", "MoorDyn_GetPointAttached", 2, 2, [.inst, .nat 1, .room 1, .room 1], .code, [.addr 2, .scal 3]⟩ /- wrappers/matlab/MoorDynM_GetPointAttached.cpp:40-51 -/,
   ⟨"MoorDynM_GetPointForce", "MoorDyn_GetPointForce", 1, 1, [.inst, .room 3], .code, [.row 1]⟩ /- wrappers/matlab/MoorDynM_GetPointForce.cpp:40-49 -/,
   ⟨"MoorDynM_GetPointID", "MoorDyn_GetPointID", 1, 1, [.inst, .room 1], .code, [.scal 1]⟩ /- wrappers/matlab/MoorDynM_GetPointID.cpp:40-47 -/,
   ⟨"MoorDynM_GetPointM", "MoorDyn_GetPointM", 1, 1, [.inst, .room 9], .code, [.square 3 1]⟩ /- wrappers/matlab/MoorDynM_GetPointM.cpp:40-49 -/,
   ⟨"MoorDynM_GetPointNAttached", "MoorDyn_GetPointNAttached", 1, 1, [.inst, .room 1], .code, [.scal 1]⟩ /- wrappers/matlab/MoorDynM_GetPointNAttached.cpp:40-47 -/,
   ⟨"MoorDynM_GetPointPos", "MoorDyn_GetPointPos", 1, 1, [.inst, .room 3], .code, [.row 1]⟩ /- wrappers/matlab/MoorDynM_GetPointPos.cpp:40-49 -/,
   ⟨"MoorDynM_GetPointType", "MoorDyn_GetPointType", 1, 1, [.inst, .room 1], .code, [.scal 1]⟩ /- wrappers/matlab/MoorDynM_GetPointType.cpp:40-47 -/,
   ⟨"MoorDynM_GetPointVel", "MoorDyn_GetPointVel", 1, 1, [.inst, .room 3], .code, [.row 1]⟩ /- wrappers/matlab/MoorDynM_GetPointVel.cpp:40-49 -/,
   ⟨"MoorDynM_GetRod", "MoorDyn_GetRod", 2, 1, [.inst, .nat 1], .null, [.ret]⟩ /- wrappers/matlab/MoorDynM_GetRod.cpp:40-52 -/,
   ⟨"MoorDynM_GetRodForce", "MoorDyn_GetRodForce", 1, 1, [.inst, .room 6], .code, [.row 1]⟩ /- wrappers/matlab/MoorDynM_GetRodForce.cpp:40-49 -/,
   ⟨"MoorDynM_GetRodID", "MoorDyn_GetRodID", 1, 1, [.inst, .room 1], .code, [.scal 1]⟩ /- wrappers/matlab/MoorDynM_GetRodID.cpp:40-47 -/,
   ⟨"MoorDynM_GetRodM", "MoorDyn_GetRodM", 1, 1, [.inst, .room 36], .code, [.square 6 1]⟩ /- wrappers/matlab/MoorDynM_GetRodM.cpp:40-49 -/,
   ⟨"MoorDynM_GetRodN", "MoorDyn_GetRodN", 1, 1, [.inst, .room 1], .code, [.scal 1]⟩ /- wrappers/matlab/MoorDynM_GetRodN.cpp:40-47 -/,
   ⟨"MoorDynM_GetRodNodePos", "MoorDyn_GetRodNodePos", 2, 1, [.inst, .nat 1, .room 3], .code, [.row 2]⟩ /- wrappers/matlab/MoorDynM_GetRodNodePos.cpp:40-50 -/,
   ⟨"MoorDynM_GetRodNodeVel", "MoorDyn_GetRodNodeVel", 2, 1, [.inst, .nat 1, .room 3], .code, [.row 2]⟩ /- wrappers/matlab/MoorDynM_GetRodNodeVel.cpp:40-50 -/,
   ⟨"MoorDynM_GetRodNumberNodes", "MoorDyn_GetRodNumberNodes", 1, 1, [.inst, .room 1], .code, [.scal 1]⟩ /- wrappers/matlab/MoorDynM_GetRodNumberNodes.cpp:40-47 -/,
   ⟨"MoorDynM_GetRodType", "MoorDyn_GetRodType", 1, 1, [.inst, .room 1], .code, [.scal 1]⟩ /- wrappers/matlab/MoorDynM_GetRodType.cpp:40-47 -/,
   ⟨"MoorDynM_GetSeafloor", "MoorDyn_GetSeafloor", 1, 1, [.inst], .none, [.ret]⟩ /- wrappers/matlab/MoorDynM_GetSeafloor.cpp:40-45 -/,
   ⟨"MoorDynM_GetWaves", "MoorDyn_GetWaves", 1, 1, [.inst], .null, [.ret]⟩ /- wrappers/matlab/MoorDynM_GetWaves.cpp:40-51 -/,
   ⟨"MoorDynM_GetWavesKin", "MoorDyn_GetWavesKin", 5, 4, [.inst, .dbl 1, .dbl 2, .dbl 3, .room 3, .room 3, .room 1, .room 1, .hdl 4], .code, [.row 4, .row 5, .scal 6, .scal 7]⟩ /- wrappers/matlab/MoorDynM_GetWavesKin.cpp:40-61 -/,
   ⟨"MoorDynM_Init", "MoorDyn_Init", 3, 0, [.inst, .vec 1, .vec 2], .code, []⟩ /- wrappers/matlab/MoorDynM_Init.cpp:40-49 -/,
   ⟨"MoorDynM_Init_NoIC", "MoorDyn_Init_NoIC", 3, 0, [.inst, .vec 1, .vec 2], .code, []⟩ /- wrappers/matlab/MoorDynM_Init_NoIC.cpp:40-49 -/,
   ⟨"MoorDynM_IsLineConstantEA", "MoorDyn_IsLineConstantEA", 1, 1, [.inst, .room 1], .code, [.scal 1]⟩ /- wrappers/matlab/MoorDynM_IsLineConstantEA.cpp:40-47 -/,
   ⟨"MoorDynM_IsLinePressBend", "MoorDyn_IsLinePressBend", 1, 1, [.inst, .room 1], .code, [.scal 1]⟩ /- wrappers/matlab/MoorDynM_IsLinePressBend.cpp:40-47 -/,
   ⟨"MoorDynM_Load", "MoorDyn_Load", 2, 0, [.inst, .chars 0], .code, []⟩ /- wrappers/matlab/MoorDynM_Load.cpp:40-47 -/,
   ⟨"MoorDynM_Log", "MoorDyn_Log", 3, 0, [.inst, .int 1, .chars 2], .code, []⟩ /- wrappers/matlab/MoorDynM_Log.cpp:40-48 -/,
   ⟨"MoorDynM_NCoupledDOF", "MoorDyn_NCoupledDOF", 1, 1, [.inst, .room 1], .code, [.scal 1]⟩ /- wrappers/matlab/MoorDynM_NCoupledDOF.cpp:40-47 -/,
   ⟨"MoorDynM_Save", "MoorDyn_Save", 2, 0, [.inst, .chars 0], .code, []⟩ /- wrappers/matlab/MoorDynM_Save.cpp:40-47 -/,
   ⟨"MoorDynM_SaveBodyVTK", "MoorDyn_SaveBodyVTK", 2, 0, [.inst, .chars 0], .code, []⟩ /- wrappers/matlab/MoorDynM_SaveBodyVTK.cpp:40-47 -/,
   ⟨"MoorDynM_SaveConnectVTK", "MoorDyn_SavePointVTK", 2, 0, [.inst, .chars 1], .code, []⟩ /- wrappers/matlab/MoorDynM_SaveConnectVTK.cpp:40-47 -/,
   ⟨"MoorDynM_SaveLineVTK", "MoorDyn_SaveLineVTK", 2, 0, [.inst, .chars 0], .code, []⟩ /- wrappers/matlab/MoorDynM_SaveLineVTK.cpp:40-47 -/,
   ⟨"MoorDynM_SaveRodVTK", "MoorDyn_SaveRodVTK", 2, 0, [.inst, .chars 0], .code, []⟩ /- wrappers/matlab/MoorDynM_SaveRodVTK.cpp:40-47 -/,
   ⟨"MoorDynM_SaveVTK", "MoorDyn_SaveVTK", 2, 0, [.inst, .chars 0], .code, []⟩ /- wrappers/matlab/MoorDynM_SaveVTK.cpp:40-47 -/,
   ⟨"MoorDynM_SetLineConstantEA", "MoorDyn_SetLineConstantEA", 2, 0, [.inst, .dbl 1], .code, []⟩ /- wrappers/matlab/MoorDynM_SetLineConstantEA.cpp:40-46 -/,
   ⟨"MoorDynM_SetLinePressBend", "MoorDyn_SetLinePressBend", 2, 0, [.inst, .int 1], .code, []⟩ /- wrappers/matlab/MoorDynM_SetLinePressBend.cpp:40-46 -/,
   ⟨"MoorDynM_SetLinePressInt", "MoorDyn_SetLinePressInt", 2, 0, [.inst, .vec 1], .code, []⟩ /- wrappers/matlab/MoorDynM_SetLinePressInt.cpp:40-47 -/,
   ⟨"MoorDynM_SetLogFile", "MoorDyn_SetLogFile", 2, 0, [.inst, .chars 0], .code, []⟩ /- wrappers/matlab/MoorDynM_SetLogFile.cpp:40-47 -/,
   ⟨"MoorDynM_SetLogLevel", "MoorDyn_SetLogLevel", 2, 0, [.inst, .int 1], .code, []⟩ /- wrappers/matlab/MoorDynM_SetLogLevel.cpp:40-46 -/,
   ⟨"MoorDynM_SetVerbosity", "MoorDyn_SetVerbosity", 2, 0, [.inst, .int 1], .code, []⟩ /- wrappers/matlab/MoorDynM_SetVerbosity.cpp:40-46 -/,
   ⟨"MoorDynM_Step", "MoorDyn_Step", 5, 2, [.inst, .vec 1, .vec 2, .like 1, .ref 3, .ref 4], .code, [.scal 4, .row 3]⟩ /- wrappers/matlab/MoorDynM_Step.cpp:40-58 -/,
   ⟨"MoorDynM_UseBodyVTK", "MoorDyn_UseBodyVTK", 2, 0, [.inst, .chars 0], .code, []⟩ /- wrappers/matlab/MoorDynM_UseBodyVTK.cpp:40-47 -/]

/-- Parameters in the headers: a handle; an unsigned or signed whole number; a number; an array of numbers;
characters; a number that is read and written; an array of `n` values that is written; an array of as many
numbers as input `k` that is written. -/
inductive Par | hdl | nat | int | dbl | vec | chars | io | out (n : ℕ) | like (k : ℕ)
  deriving DecidableEq, Repr

/-- A function of the library with its parameters. -/
structure Proto where
  name : String
  pars : List Par
  deriving DecidableEq, Repr

/-- The prototypes of the functions called; file and line beside each entry.  Which of the pointers are read
and which are written is said by the comments above each prototype. -/
def protos : List Proto :=
  [⟨"MoorDyn_Close", [.hdl]⟩ /- source/MoorDyn2.h:203 -/,
   ⟨"MoorDyn_ExternalWaveKinGetN", [.hdl, .out 1]⟩ /- source/MoorDyn2.h:251 -/,
   ⟨"MoorDyn_ExternalWaveKinInit", [.hdl, .out 1]⟩ /- source/MoorDyn2.h:239 -/,
   ⟨"MoorDyn_ExternalWaveKinSet", [.hdl, .vec, .vec, .dbl]⟩ /- source/MoorDyn2.h:298 -/,
   ⟨"MoorDyn_GetAverageDepth", [.hdl, .out 1]⟩ /- source/Seafloor.h:38 -/,
   ⟨"MoorDyn_GetBody", [.hdl, .nat]⟩ /- source/MoorDyn2.h:344 -/,
   ⟨"MoorDyn_GetBodyAngVel", [.hdl, .out 3]⟩ /- source/Body.h:106 -/,
   ⟨"MoorDyn_GetBodyAngle", [.hdl, .out 3]⟩ /- source/Body.h:90 -/,
   ⟨"MoorDyn_GetBodyForce", [.hdl, .out 6]⟩ /- source/Body.h:114 -/,
   ⟨"MoorDyn_GetBodyID", [.hdl, .out 1]⟩ /- source/Body.h:56 -/,
   ⟨"MoorDyn_GetBodyM", [.hdl, .out 36]⟩ /- source/Body.h:122 -/,
   ⟨"MoorDyn_GetBodyPos", [.hdl, .out 3]⟩ /- source/Body.h:82 -/,
   ⟨"MoorDyn_GetBodyState", [.hdl, .out 6, .out 6]⟩ /- source/Body.h:74 -/,
   ⟨"MoorDyn_GetBodyType", [.hdl, .out 1]⟩ /- source/Body.h:65 -/,
   ⟨"MoorDyn_GetBodyVel", [.hdl, .out 3]⟩ /- source/Body.h:98 -/,
   ⟨"MoorDyn_GetDepthAt", [.hdl, .dbl, .dbl, .out 1]⟩ /- source/Seafloor.h:24 -/,
   ⟨"MoorDyn_GetLine", [.hdl, .nat]⟩ /- source/MoorDyn2.h:395 -/,
   ⟨"MoorDyn_GetLineConstantEA", [.hdl, .out 1]⟩ /- source/Line.h:127 -/,
   ⟨"MoorDyn_GetLineFairTen", [.hdl, .out 1]⟩ /- source/Line.h:450 -/,
   ⟨"MoorDyn_GetLineID", [.hdl, .out 1]⟩ /- source/Line.h:56 -/,
   ⟨"MoorDyn_GetLineMaxTen", [.hdl, .out 1]⟩ /- source/Line.h:458 -/,
   ⟨"MoorDyn_GetLineN", [.hdl, .out 1]⟩ /- source/Line.h:66 -/,
   ⟨"MoorDyn_GetLineNodeBendStiff", [.hdl, .nat, .out 3]⟩ /- source/Line.h:267 -/,
   ⟨"MoorDyn_GetLineNodeCurv", [.hdl, .nat, .out 1]⟩ /- source/Line.h:427 -/,
   ⟨"MoorDyn_GetLineNodeDrag", [.hdl, .nat, .out 3]⟩ /- source/Line.h:335 -/,
   ⟨"MoorDyn_GetLineNodeForce", [.hdl, .nat, .out 3]⟩ /- source/Line.h:212 -/,
   ⟨"MoorDyn_GetLineNodeFroudeKrilov", [.hdl, .nat, .out 3]⟩ /- source/Line.h:379 -/,
   ⟨"MoorDyn_GetLineNodeM", [.hdl, .nat, .out 9]⟩ /- source/Line.h:440 -/,
   ⟨"MoorDyn_GetLineNodePos", [.hdl, .nat, .out 3]⟩ /- source/Line.h:180 -/,
   ⟨"MoorDyn_GetLineNodeSeabedForce", [.hdl, .nat, .out 3]⟩ /- source/Line.h:413 -/,
   ⟨"MoorDyn_GetLineNodeTen", [.hdl, .nat, .out 3]⟩ /- source/Line.h:243 -/,
   ⟨"MoorDyn_GetLineNodeVel", [.hdl, .nat, .out 3]⟩ /- source/Line.h:191 -/,
   ⟨"MoorDyn_GetLineNodeWeight", [.hdl, .nat, .out 3]⟩ /- source/Line.h:294 -/,
   ⟨"MoorDyn_GetLineNumberNodes", [.hdl, .out 1]⟩ /- source/Line.h:75 -/,
   ⟨"MoorDyn_GetLineUnstretchedLength", [.hdl, .out 1]⟩ /- source/Line.h:84 -/,
   ⟨"MoorDyn_GetMinDepth", [.hdl, .out 1]⟩ /- source/Seafloor.h:47 -/,
   ⟨"MoorDyn_GetNumberBodies", [.hdl, .out 1]⟩ /- source/MoorDyn2.h:335 -/,
   ⟨"MoorDyn_GetNumberLines", [.hdl, .out 1]⟩ /- source/MoorDyn2.h:388 -/,
   ⟨"MoorDyn_GetNumberPoints", [.hdl, .out 1]⟩ /- source/MoorDyn2.h:371 -/,
   ⟨"MoorDyn_GetNumberRods", [.hdl, .out 1]⟩ /- source/MoorDyn2.h:354 -/,
   ⟨"MoorDyn_GetPoint", [.hdl, .nat]⟩ /- source/MoorDyn2.h:378 -/,
   ⟨"MoorDyn_GetPointAttached", [.hdl, .nat, .out 1, .out 1]⟩ /- source/Point.h:123 -/,
   ⟨"MoorDyn_GetPointForce", [.hdl, .out 3]⟩ /- source/Point.h:94 -/,
   ⟨"MoorDyn_GetPointID", [.hdl, .out 1]⟩ /- source/Point.h:58 -/,
   ⟨"MoorDyn_GetPointM", [.hdl, .out 9]⟩ /- source/Point.h:103 -/,
   ⟨"MoorDyn_GetPointNAttached", [.hdl, .out 1]⟩ /- source/Point.h:112 -/,
   ⟨"MoorDyn_GetPointPos", [.hdl, .out 3]⟩ /- source/Point.h:76 -/,
   ⟨"MoorDyn_GetPointType", [.hdl, .out 1]⟩ /- source/Point.h:67 -/,
   ⟨"MoorDyn_GetPointVel", [.hdl, .out 3]⟩ /- source/Point.h:85 -/,
   ⟨"MoorDyn_GetRod", [.hdl, .nat]⟩ /- source/MoorDyn2.h:361 -/,
   ⟨"MoorDyn_GetRodForce", [.hdl, .out 6]⟩ /- source/Rod.h:73 -/,
   ⟨"MoorDyn_GetRodID", [.hdl, .out 1]⟩ /- source/Rod.h:56 -/,
   ⟨"MoorDyn_GetRodM", [.hdl, .out 36]⟩ /- source/Rod.h:81 -/,
   ⟨"MoorDyn_GetRodN", [.hdl, .out 1]⟩ /- source/Rod.h:91 -/,
   ⟨"MoorDyn_GetRodNodePos", [.hdl, .nat, .out 3]⟩ /- source/Rod.h:109 -/,
   ⟨"MoorDyn_GetRodNodeVel", [.hdl, .nat, .out 3]⟩ /- source/Rod.h:120 -/,
   ⟨"MoorDyn_GetRodNumberNodes", [.hdl, .out 1]⟩ /- source/Rod.h:100 -/,
   ⟨"MoorDyn_GetRodType", [.hdl, .out 1]⟩ /- source/Rod.h:64 -/,
   ⟨"MoorDyn_GetSeafloor", [.hdl]⟩ /- source/MoorDyn2.h:222 -/,
   ⟨"MoorDyn_GetWaves", [.hdl]⟩ /- source/MoorDyn2.h:212 -/,
   ⟨"MoorDyn_GetWavesKin", [.hdl, .dbl, .dbl, .dbl, .out 3, .out 3, .out 1, .out 1, .hdl]⟩ /- source/Waves.h:69 -/,
   ⟨"MoorDyn_Init", [.hdl, .vec, .vec]⟩ /- source/MoorDyn2.h:157 -/,
   ⟨"MoorDyn_Init_NoIC", [.hdl, .vec, .vec]⟩ /- source/MoorDyn2.h:175 -/,
   ⟨"MoorDyn_IsLineConstantEA", [.hdl, .out 1]⟩ /- source/Line.h:115 -/,
   ⟨"MoorDyn_IsLinePressBend", [.hdl, .out 1]⟩ /- source/Line.h:149 -/,
   ⟨"MoorDyn_Load", [.hdl, .chars]⟩ /- source/MoorDyn2.h:522 -/,
   ⟨"MoorDyn_Log", [.hdl, .int, .chars]⟩ /- source/MoorDyn2.h:139 -/,
   ⟨"MoorDyn_NCoupledDOF", [.hdl, .out 1]⟩ /- source/MoorDyn2.h:83 -/,
   ⟨"MoorDyn_Save", [.hdl, .chars]⟩ /- source/MoorDyn2.h:509 -/,
   ⟨"MoorDyn_SaveBodyVTK", [.hdl, .chars]⟩ /- source/Body.h:133 -/,
   ⟨"MoorDyn_SaveLineVTK", [.hdl, .chars]⟩ /- source/Line.h:469 -/,
   ⟨"MoorDyn_SavePointVTK", [.hdl, .chars]⟩ /- source/Point.h:137 -/,
   ⟨"MoorDyn_SaveRodVTK", [.hdl, .chars]⟩ /- source/Rod.h:133 -/,
   ⟨"MoorDyn_SaveVTK", [.hdl, .chars]⟩ /- source/MoorDyn2.h:539 -/,
   ⟨"MoorDyn_SetLineConstantEA", [.hdl, .dbl]⟩ /- source/Line.h:139 -/,
   ⟨"MoorDyn_SetLinePressBend", [.hdl, .int]⟩ /- source/Line.h:160 -/,
   ⟨"MoorDyn_SetLinePressInt", [.hdl, .vec]⟩ /- source/Line.h:171 -/,
   ⟨"MoorDyn_SetLogFile", [.hdl, .chars]⟩ /- source/MoorDyn2.h:105 -/,
   ⟨"MoorDyn_SetLogLevel", [.hdl, .int]⟩ /- source/MoorDyn2.h:120 -/,
   ⟨"MoorDyn_SetVerbosity", [.hdl, .int]⟩ /- source/MoorDyn2.h:97 -/,
   ⟨"MoorDyn_Step", [.hdl, .vec, .vec, .like 1, .io, .io]⟩ /- source/MoorDyn2.h:191 -/,
   ⟨"MoorDyn_UseBodyVTK", [.hdl, .chars]⟩ /- source/Body.h:150 -/]

/-- What the function of the library is handed. -/
inductive Arg
  | addr (a : ℕ) | int (i : ℤ) | dbl (x : ℚ) | cell (x : ℚ) | arr (v : List ℚ) | text (s : String)
  | room (n : ℕ)
  deriving DecidableEq, Repr

/-- What it hands back: the code or address returned, and the numbers and the address at each argument that
is a pointer. -/
structure Ret where
  code : ℤ
  ptr : ℕ
  after : ℕ → List ℚ
  place : ℕ → ℕ

/-- The library: from the name of the function, the arguments and the state to the results and the new state.
Simplification: any function at all. -/
abbrev Lib (σ : Type) := String → List Arg → σ → Ret × σ

/-- What the C++ interface of MATLAB makes of an element of an array of another type than asked for (`none`:
it throws); nothing here depends on it. -/
structure Conv where
  handle : Arr → Option ℕ
  num : Arr → Option ℚ

/-- How reading an input ends: the value, an error, undefined behaviour. -/
inductive Rd (α : Type) | ok (a : α) | bad | undef
  deriving DecidableEq, Repr

/-- Reading one after the other (the statements of wrappers/matlab/MoorDynM_*.cpp in order). -/
def Rd.bind {α β : Type} : Rd α → (α → Rd β) → Rd β
  | .ok a, f => f a
  | .bad, _ => .bad
  | .undef, _ => .undef

/-- `const uint64_t h = inputs[k][0]` (wrappers/matlab/moordyn_matlab.h:93-94, MoorDynM_GetWavesKin.cpp:45). -/
def readHandle (c : Conv) : Option Arr → Rd ℕ
  | some (.u64 (h :: _)) => .ok h
  | some (.u64 []) => .bad
  | some a => (c.handle a).elim .bad .ok
  | none => .undef

/-- `const double x = inputs[k][0]` (e.g. wrappers/matlab/MoorDynM_GetDepthAt.cpp:42). -/
def readNum (c : Conv) : Option Arr → Rd ℚ
  | some (.nums (x :: _)) => .ok x
  | some (.nums []) => .bad
  | some a => (c.num a).elim .bad .ok
  | none => .undef

/-- `const unsigned int i = inputs[k][0]` (e.g. wrappers/matlab/MoorDynM_GetBody.cpp:42): the part before the
point; undefined for a number that is then out of range. -/
def readNat (c : Conv) (a : Option Arr) : Rd ℤ :=
  (readNum c a).bind fun x =>
    if 0 ≤ x.num.tdiv x.den ∧ x.num.tdiv x.den < 2 ^ 32 then .ok (x.num.tdiv x.den) else .undef

/-- `const int i = inputs[k][0]` (e.g. wrappers/matlab/MoorDynM_SetLogLevel.cpp:42). -/
def readInt (c : Conv) (a : Option Arr) : Rd ℤ :=
  (readNum c a).bind fun x =>
    if -(2 ^ 31) ≤ x.num.tdiv x.den ∧ x.num.tdiv x.den < 2 ^ 31 then .ok (x.num.tdiv x.den) else .undef

/-- `TypedArray<double> x_matlab = std::move(inputs[k])` and the vector made of it (e.g.
wrappers/matlab/MoorDynM_Init.cpp:42-43): throws for an array of another type. -/
def readVec : Option Arr → Rd (List ℚ)
  | some (.nums v) => .ok v
  | some _ => .bad
  | none => .undef

/-- `const CharArray s = inputs[k]` (e.g. wrappers/matlab/MoorDynM_Log.cpp:43): throws for an array of another
type. -/
def readChars : Option Arr → Rd String
  | some (.chars s) => .ok s
  | some _ => .bad
  | none => .undef

/-- One argument of the call (wrappers/matlab/MoorDynM_*.cpp). -/
def read (c : Conv) (ins : List Arr) : Src → Rd Arg
  | .inst => (readHandle c ins[0]?).bind fun h => .ok (.addr h)
  | .hdl k => (readHandle c ins[k]?).bind fun h => .ok (.addr h)
  | .nat k => (readNat c ins[k]?).bind fun i => .ok (.int i)
  | .int k => (readInt c ins[k]?).bind fun i => .ok (.int i)
  | .dbl k => (readNum c ins[k]?).bind fun x => .ok (.dbl x)
  | .ref k => (readNum c ins[k]?).bind fun x => .ok (.cell x)
  | .vec k => (readVec ins[k]?).bind fun v => .ok (.arr v)
  | .chars k => (readChars ins[k]?).bind fun s => .ok (.text s)
  | .room n => .ok (.room n)
  | .like k => (readVec ins[k]?).bind fun v => .ok (.room v.length)

/-- All arguments. -/
def readAll (c : Conv) (ins : List Arr) : List Src → Rd (List Arg)
  | [] => .ok []
  | s :: ss => (read c ins s).bind fun a => (readAll c ins ss).bind fun as => .ok (a :: as)

/-- Values returned to MATLAB: a handle, a number, a row of numbers, a matrix by row and column. -/
inductive Val | handle (a : ℕ) | num (x : ℚ) | row (v : List ℚ) | matrix (n : ℕ) (m : ℕ → ℕ → Option ℚ)

/-- `factory.createArray<double>({ n, n }, begin, end)`: MATLAB keeps a matrix column by column, so that the
element of row `i` and column `j` is number `i + n j` of those handed over
(e.g. wrappers/matlab/MoorDynM_GetBodyM.cpp:46-47). -/
def columns (n : ℕ) (v : List ℚ) (i j : ℕ) : Option ℚ := v[i + n * j]?

/-- One output (wrappers/matlab/MoorDynM_*.cpp). -/
def give (r : Ret) : Out → Val
  | .ret => .handle r.ptr
  | .addr j => .handle (r.place j)
  | .scal j => .num ((r.after j).headD 0)
  | .row j => .row (r.after j)
  | .square n j => .matrix n (columns n (r.after j))

/-- The messages of errors. -/
inductive Err | inputs (n : ℕ) | outputs (n : ℕ) | type | code (c : ℤ) | null

/-- How a call from MATLAB ends. -/
inductive Res (α : Type) | ok (a : α) | error (e : Err) | undef

/-- wrappers/matlab/moordyn_matlab.h:101-137 (`MOORDYNM_CHECK_ERROR`) and the checks of the address
(e.g. wrappers/matlab/MoorDynM_GetBody.cpp:44-49): whether the outputs are made. -/
def judge (e : End) (r : Ret) : Option Err :=
  match e with
  | .code => if r.code = 0 then none else some (.code r.code)
  | .null => if r.ptr = 0 then some .null else none
  | .none => none

/-- A function of MATLAB called with the inputs `ins` and `n` outputs: wrappers/matlab/moordyn_matlab.h:66-99
and the body of the function.  `MATLABEngine::feval(u"error", ...)` throws. -/
def run {σ : Type} (c : Conv) (lib : Lib σ) (f : Fn) (ins : List Arr) (n : ℕ) (s : σ) : Res (List Val) × σ :=
  if ins.length ≠ f.nIn then (.error (.inputs f.nIn), s)
  else if n ≠ f.nOut then (.error (.outputs f.nOut), s)
  else
    match (readHandle c ins[0]?).bind fun _ => readAll c ins f.args with
    | .bad => (.error .type, s)
    | .undef => (.undef, s)
    | .ok args =>
      ((judge f.ending (lib f.calls args s).1).elim (.ok (f.outs.map (give (lib f.calls args s).1))) .error,
        (lib f.calls args s).2)

/-- wrappers/matlab/MoorDynM_Create.cpp:39-81. -/
def create {σ : Type} (lib : Lib σ) (ins : List Arr) (n : ℕ) (s : σ) : Res (List Val) × σ :=
  match ins with
  | [.chars file] =>
    if n ≠ 1 then (.error (.outputs 1), s)
    else ((judge .null (lib "MoorDyn_Create" [.text file] s).1).elim
      (.ok [.handle (lib "MoorDyn_Create" [.text file] s).1.ptr]) .error,
      (lib "MoorDyn_Create" [.text file] s).2)
  | _ => (.error (.inputs 1), s)

/-- wrappers/matlab/MoorDynM_ExternalWaveKinGetCoordinates.cpp:40-53: first the number of points, then the
coordinates. -/
def coordinates {σ : Type} (c : Conv) (lib : Lib σ) (ins : List Arr) (n : ℕ) (s : σ) : Res (List Val) × σ :=
  if ins.length ≠ 1 then (.error (.inputs 1), s)
  else if n ≠ 1 then (.error (.outputs 1), s)
  else
    match readHandle c ins[0]? with
    | .bad => (.error .type, s)
    | .undef => (.undef, s)
    | .ok h =>
      let r := (lib "MoorDyn_ExternalWaveKinGetN" [.addr h, .room 1] s)
      (judge .code r.1).elim
        (let q := lib "MoorDyn_ExternalWaveKinGetCoordinates"
            [.addr h, .room (3 * ((r.1.after 1).headD 0).num.toNat)] r.2
         ((judge .code q.1).elim (.ok [.row (q.1.after 1)]) .error, q.2))
        fun e => (.error e, r.2)

end MD.Matlab
