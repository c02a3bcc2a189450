import Mathlib.Data.Rat.Defs
import Mathlib.Data.List.Basic
import Mathlib.Tactic.Linarith

/-!
# The Fortran module, the Rust declarations and the MATLAB functions

wrappers/fortran/MoorDyn.f90 and wrappers/rust/bindings.rs declare the C functions again; nothing checks the
declarations against source/*.h.  Here: both tables, and what a C function receives when it is called through a declaration
that says something else, by the rules for calls of the System V and of the Microsoft 64 bit systems.
wrappers/matlab/*.cpp: the functions that take arrays.
-/

namespace MD.Foreign

/-- Types of parameters in the C headers. -/
inductive CT | hdl | int | dbl | dblPtr | fltPtr | intPtr | hdlPtr | chrPtr
  deriving DecidableEq, Repr

/-- Types of parameters of the Fortran functions: handles, numbers passed by value, arrays, variables
passed by reference, texts. -/
inductive FT | hdl | int | dbl | dblArr | dblRef | intRef | hdlRef | chrArr
  deriving DecidableEq, Repr

/-- A C prototype. -/
structure CFn where
  name : String
  args : List CT
  deriving DecidableEq, Repr

/-- A Fortran function: its name, the symbol it is bound to, its parameters. -/
structure FFn where
  name : String
  symbol : String
  args : List FT
  deriving DecidableEq, Repr

/-- The prototypes of source/MoorDyn2.h, source/Waves.h, source/Seafloor.h, source/Body.h, source/Rod.h,
source/Point.h and source/Line.h; file and line of each one are beside its entry.  `unsigned int` counts as
`int`; arrays of three or of six by six numbers are pointers to `double`.  Left out: the functions with
arguments of other types (serialization and the name of the time scheme), which the Fortran module does
not have. -/
def prototypes : List CFn :=
  [⟨"MoorDyn_Create", [.chrPtr]⟩ /- source/MoorDyn2.h:74 -/,
   ⟨"MoorDyn_NCoupledDOF", [.hdl, .intPtr]⟩ /- source/MoorDyn2.h:83 -/,
   ⟨"MoorDyn_SetVerbosity", [.hdl, .int]⟩ /- source/MoorDyn2.h:97 -/,
   ⟨"MoorDyn_SetLogFile", [.hdl, .chrPtr]⟩ /- source/MoorDyn2.h:105 -/,
   ⟨"MoorDyn_SetLogLevel", [.hdl, .int]⟩ /- source/MoorDyn2.h:120 -/,
   ⟨"MoorDyn_Log", [.hdl, .int, .chrPtr]⟩ /- source/MoorDyn2.h:139 -/,
   ⟨"MoorDyn_Init", [.hdl, .dblPtr, .dblPtr]⟩ /- source/MoorDyn2.h:157 -/,
   ⟨"MoorDyn_Init_NoIC", [.hdl, .dblPtr, .dblPtr]⟩ /- source/MoorDyn2.h:175 -/,
   ⟨"MoorDyn_Step", [.hdl, .dblPtr, .dblPtr, .dblPtr, .dblPtr, .dblPtr]⟩ /- source/MoorDyn2.h:191 -/,
   ⟨"MoorDyn_Close", [.hdl]⟩ /- source/MoorDyn2.h:203 -/,
   ⟨"MoorDyn_GetWaves", [.hdl]⟩ /- source/MoorDyn2.h:212 -/,
   ⟨"MoorDyn_GetSeafloor", [.hdl]⟩ /- source/MoorDyn2.h:222 -/,
   ⟨"MoorDyn_ExternalWaveKinInit", [.hdl, .intPtr]⟩ /- source/MoorDyn2.h:239 -/,
   ⟨"MoorDyn_ExternalWaveKinGetN", [.hdl, .intPtr]⟩ /- source/MoorDyn2.h:251 -/,
   ⟨"MoorDyn_ExternalWaveKinGetCoordinates", [.hdl, .dblPtr]⟩ /- source/MoorDyn2.h:265 -/,
   ⟨"MoorDyn_GetWaveKinCoordinates", [.hdl, .dblPtr]⟩ /- source/MoorDyn2.h:280 -/,
   ⟨"MoorDyn_ExternalWaveKinSet", [.hdl, .dblPtr, .dblPtr, .dbl]⟩ /- source/MoorDyn2.h:298 -/,
   ⟨"MoorDyn_SetWaveKin", [.hdl, .dblPtr, .dblPtr, .dbl]⟩ /- source/MoorDyn2.h:317 -/,
   ⟨"MoorDyn_GetNumberBodies", [.hdl, .intPtr]⟩ /- source/MoorDyn2.h:335 -/,
   ⟨"MoorDyn_GetBody", [.hdl, .int]⟩ /- source/MoorDyn2.h:344 -/,
   ⟨"MoorDyn_GetNumberRods", [.hdl, .intPtr]⟩ /- source/MoorDyn2.h:354 -/,
   ⟨"MoorDyn_GetRod", [.hdl, .int]⟩ /- source/MoorDyn2.h:361 -/,
   ⟨"MoorDyn_GetNumberPoints", [.hdl, .intPtr]⟩ /- source/MoorDyn2.h:371 -/,
   ⟨"MoorDyn_GetPoint", [.hdl, .int]⟩ /- source/MoorDyn2.h:378 -/,
   ⟨"MoorDyn_GetNumberLines", [.hdl, .intPtr]⟩ /- source/MoorDyn2.h:388 -/,
   ⟨"MoorDyn_GetLine", [.hdl, .int]⟩ /- source/MoorDyn2.h:395 -/,
   ⟨"MoorDyn_GetFASTtens", [.hdl, .intPtr, .fltPtr, .fltPtr, .fltPtr, .fltPtr]⟩ /- source/MoorDyn2.h:411 -/,
   ⟨"MoorDyn_GetDt", [.hdl, .dblPtr]⟩ /- source/MoorDyn2.h:424 -/,
   ⟨"MoorDyn_SetDt", [.hdl, .dbl]⟩ /- source/MoorDyn2.h:432 -/,
   ⟨"MoorDyn_GetCFL", [.hdl, .dblPtr]⟩ /- source/MoorDyn2.h:440 -/,
   ⟨"MoorDyn_SetCFL", [.hdl, .dbl]⟩ /- source/MoorDyn2.h:448 -/,
   ⟨"MoorDyn_SetTimeScheme", [.hdl, .chrPtr]⟩ /- source/MoorDyn2.h:467 -/,
   ⟨"MoorDyn_Save", [.hdl, .chrPtr]⟩ /- source/MoorDyn2.h:509 -/,
   ⟨"MoorDyn_Load", [.hdl, .chrPtr]⟩ /- source/MoorDyn2.h:522 -/,
   ⟨"MoorDyn_SaveVTK", [.hdl, .chrPtr]⟩ /- source/MoorDyn2.h:539 -/,
   ⟨"MoorDyn_GetWavesKin", [.hdl, .dbl, .dbl, .dbl, .dblPtr, .dblPtr, .dblPtr, .dblPtr, .hdl]⟩ /- source/Waves.h:69 -/,
   ⟨"MoorDyn_GetDepthAt", [.hdl, .dbl, .dbl, .dblPtr]⟩ /- source/Seafloor.h:24 -/,
   ⟨"MoorDyn_GetAverageDepth", [.hdl, .dblPtr]⟩ /- source/Seafloor.h:38 -/,
   ⟨"MoorDyn_GetMinDepth", [.hdl, .dblPtr]⟩ /- source/Seafloor.h:47 -/,
   ⟨"MoorDyn_GetBodyID", [.hdl, .intPtr]⟩ /- source/Body.h:56 -/,
   ⟨"MoorDyn_GetBodyType", [.hdl, .intPtr]⟩ /- source/Body.h:65 -/,
   ⟨"MoorDyn_GetBodyState", [.hdl, .dblPtr, .dblPtr]⟩ /- source/Body.h:74 -/,
   ⟨"MoorDyn_GetBodyPos", [.hdl, .dblPtr]⟩ /- source/Body.h:82 -/,
   ⟨"MoorDyn_GetBodyAngle", [.hdl, .dblPtr]⟩ /- source/Body.h:90 -/,
   ⟨"MoorDyn_GetBodyVel", [.hdl, .dblPtr]⟩ /- source/Body.h:98 -/,
   ⟨"MoorDyn_GetBodyAngVel", [.hdl, .dblPtr]⟩ /- source/Body.h:106 -/,
   ⟨"MoorDyn_GetBodyForce", [.hdl, .dblPtr]⟩ /- source/Body.h:114 -/,
   ⟨"MoorDyn_GetBodyM", [.hdl, .dblPtr]⟩ /- source/Body.h:122 -/,
   ⟨"MoorDyn_SaveBodyVTK", [.hdl, .chrPtr]⟩ /- source/Body.h:133 -/,
   ⟨"MoorDyn_UseBodyVTK", [.hdl, .chrPtr]⟩ /- source/Body.h:150 -/,
   ⟨"MoorDyn_GetRodID", [.hdl, .intPtr]⟩ /- source/Rod.h:56 -/,
   ⟨"MoorDyn_GetRodType", [.hdl, .intPtr]⟩ /- source/Rod.h:64 -/,
   ⟨"MoorDyn_GetRodForce", [.hdl, .dblPtr]⟩ /- source/Rod.h:73 -/,
   ⟨"MoorDyn_GetRodM", [.hdl, .dblPtr]⟩ /- source/Rod.h:81 -/,
   ⟨"MoorDyn_GetRodN", [.hdl, .intPtr]⟩ /- source/Rod.h:91 -/,
   ⟨"MoorDyn_GetRodNumberNodes", [.hdl, .intPtr]⟩ /- source/Rod.h:100 -/,
   ⟨"MoorDyn_GetRodNodePos", [.hdl, .int, .dblPtr]⟩ /- source/Rod.h:109 -/,
   ⟨"MoorDyn_GetRodNodeVel", [.hdl, .int, .dblPtr]⟩ /- source/Rod.h:120 -/,
   ⟨"MoorDyn_SaveRodVTK", [.hdl, .chrPtr]⟩ /- source/Rod.h:133 -/,
   ⟨"MoorDyn_GetPointID", [.hdl, .intPtr]⟩ /- source/Point.h:58 -/,
   ⟨"MoorDyn_GetPointType", [.hdl, .intPtr]⟩ /- source/Point.h:67 -/,
   ⟨"MoorDyn_GetPointPos", [.hdl, .dblPtr]⟩ /- source/Point.h:76 -/,
   ⟨"MoorDyn_GetPointVel", [.hdl, .dblPtr]⟩ /- source/Point.h:85 -/,
   ⟨"MoorDyn_GetPointForce", [.hdl, .dblPtr]⟩ /- source/Point.h:94 -/,
   ⟨"MoorDyn_GetPointM", [.hdl, .dblPtr]⟩ /- source/Point.h:103 -/,
   ⟨"MoorDyn_GetPointNAttached", [.hdl, .intPtr]⟩ /- source/Point.h:112 -/,
   ⟨"MoorDyn_GetPointAttached", [.hdl, .int, .hdlPtr, .intPtr]⟩ /- source/Point.h:123 -/,
   ⟨"MoorDyn_SavePointVTK", [.hdl, .chrPtr]⟩ /- source/Point.h:137 -/,
   ⟨"MoorDyn_GetLineID", [.hdl, .intPtr]⟩ /- source/Line.h:56 -/,
   ⟨"MoorDyn_GetLineN", [.hdl, .intPtr]⟩ /- source/Line.h:66 -/,
   ⟨"MoorDyn_GetLineNumberNodes", [.hdl, .intPtr]⟩ /- source/Line.h:75 -/,
   ⟨"MoorDyn_GetLineUnstretchedLength", [.hdl, .dblPtr]⟩ /- source/Line.h:84 -/,
   ⟨"MoorDyn_SetLineUnstretchedLength", [.hdl, .dbl]⟩ /- source/Line.h:93 -/,
   ⟨"MoorDyn_SetLineUnstretchedLengthVel", [.hdl, .dbl]⟩ /- source/Line.h:103 -/,
   ⟨"MoorDyn_IsLineConstantEA", [.hdl, .intPtr]⟩ /- source/Line.h:115 -/,
   ⟨"MoorDyn_GetLineConstantEA", [.hdl, .dblPtr]⟩ /- source/Line.h:127 -/,
   ⟨"MoorDyn_SetLineConstantEA", [.hdl, .dbl]⟩ /- source/Line.h:139 -/,
   ⟨"MoorDyn_IsLinePressBend", [.hdl, .intPtr]⟩ /- source/Line.h:149 -/,
   ⟨"MoorDyn_SetLinePressBend", [.hdl, .int]⟩ /- source/Line.h:160 -/,
   ⟨"MoorDyn_SetLinePressInt", [.hdl, .dblPtr]⟩ /- source/Line.h:171 -/,
   ⟨"MoorDyn_GetLineNodePos", [.hdl, .int, .dblPtr]⟩ /- source/Line.h:180 -/,
   ⟨"MoorDyn_GetLineNodeVel", [.hdl, .int, .dblPtr]⟩ /- source/Line.h:191 -/,
   ⟨"MoorDyn_GetLineNodeForce", [.hdl, .int, .dblPtr]⟩ /- source/Line.h:212 -/,
   ⟨"MoorDyn_GetLineNodeTen", [.hdl, .int, .dblPtr]⟩ /- source/Line.h:243 -/,
   ⟨"MoorDyn_GetLineNodeBendStiff", [.hdl, .int, .dblPtr]⟩ /- source/Line.h:267 -/,
   ⟨"MoorDyn_GetLineNodeWeight", [.hdl, .int, .dblPtr]⟩ /- source/Line.h:294 -/,
   ⟨"MoorDyn_GetLineNodeDrag", [.hdl, .int, .dblPtr]⟩ /- source/Line.h:335 -/,
   ⟨"MoorDyn_GetLineNodeFroudeKrilov", [.hdl, .int, .dblPtr]⟩ /- source/Line.h:379 -/,
   ⟨"MoorDyn_GetLineNodeSeabedForce", [.hdl, .int, .dblPtr]⟩ /- source/Line.h:413 -/,
   ⟨"MoorDyn_GetLineNodeCurv", [.hdl, .int, .dblPtr]⟩ /- source/Line.h:427 -/,
   ⟨"MoorDyn_GetLineNodeM", [.hdl, .int, .dblPtr]⟩ /- source/Line.h:440 -/,
   ⟨"MoorDyn_GetLineFairTen", [.hdl, .dblPtr]⟩ /- source/Line.h:450 -/,
   ⟨"MoorDyn_GetLineMaxTen", [.hdl, .dblPtr]⟩ /- source/Line.h:458 -/,
   ⟨"MoorDyn_SaveLineVTK", [.hdl, .chrPtr]⟩ /- source/Line.h:469 -/]

/-- The interface of wrappers/fortran/MoorDyn.f90:79-702 as the user of the module sees it: functions with a
wrapper (wrappers/fortran/MoorDyn.f90:705-1066) take arrays of `real(c_double)` and texts, which are passed
by address. -/
def fortran : List FFn :=
  [⟨"MD_Create", "MoorDyn_Create", [.chrArr]⟩ /- 84 -/,
   ⟨"MD_NCoupledDOF", "MoorDyn_NCoupledDOF", [.hdl, .intRef]⟩ /- 90 -/,
   ⟨"MD_SetVerbosity", "MD_SetVerbosity", [.hdl, .intRef]⟩ /- 96 -/,
   ⟨"MD_SetLogFile", "MoorDyn_SetLogFile", [.hdl, .chrArr]⟩ /- 102 -/,
   ⟨"MD_SetLogLevel", "MoorDyn_SetLogLevel", [.hdl, .intRef]⟩ /- 109 -/,
   ⟨"MD_Log", "MoorDyn_Log", [.hdl, .intRef, .chrArr]⟩ /- 115 -/,
   ⟨"MD_Init", "MoorDyn_Init", [.hdl, .dblArr, .dblArr]⟩ /- 123 -/,
   ⟨"MD_Init_NoIC", "MoorDyn_Init_NoIC", [.hdl, .dblArr, .dblArr]⟩ /- 131 -/,
   ⟨"MD_Step", "MoorDyn_Step", [.hdl, .dblArr, .dblArr, .dblArr, .dblRef, .dblRef]⟩ /- 139 -/,
   ⟨"MD_Close", "MoorDyn_Close", [.hdl]⟩ /- 150 -/,
   ⟨"MD_GetWaves", "MoorDyn_GetWaves", [.hdl]⟩ /- 155 -/,
   ⟨"MD_GetSeafloor", "MoorDyn_GetSeafloor", [.hdl]⟩ /- 160 -/,
   ⟨"MD_ExternalWaveKinInit", "MoorDyn_ExternalWaveKinInit", [.hdl, .intRef]⟩ /- 165 -/,
   ⟨"MD_ExternalWaveKinGetN", "MoorDyn_ExternalWaveKinGetN", [.hdl, .intRef]⟩ /- 171 -/,
   ⟨"MD_ExternalWaveKinGetCoordinates", "MoorDyn_ExternalWaveKinGetCoordinates", [.hdl, .dblArr]⟩ /- 177 -/,
   ⟨"MD_ExternalWaveKinSet", "MoorDyn_ExternalWaveKinSet", [.hdl, .dblArr, .dblArr, .dblRef]⟩ /- 184 -/,
   ⟨"MD_GetNumberBodies", "MoorDyn_GetNumberBodies", [.hdl, .intRef]⟩ /- 193 -/,
   ⟨"MD_GetBody", "MoorDyn_GetBody", [.hdl, .int]⟩ /- 199 -/,
   ⟨"MD_GetNumberRods", "MoorDyn_GetNumberRods", [.hdl, .intRef]⟩ /- 205 -/,
   ⟨"MD_GetRod", "MoorDyn_GetRod", [.hdl, .int]⟩ /- 211 -/,
   ⟨"MD_GetNumberPoints", "MoorDyn_GetNumberPoints", [.hdl, .intRef]⟩ /- 217 -/,
   ⟨"MD_GetPoint", "MoorDyn_GetPoint", [.hdl, .int]⟩ /- 223 -/,
   ⟨"MD_GetNumberLines", "MoorDyn_GetNumberLines", [.hdl, .intRef]⟩ /- 229 -/,
   ⟨"MD_GetLine", "MoorDyn_GetLine", [.hdl, .int]⟩ /- 235 -/,
   ⟨"MD_GetFASTtens", "MoorDyn_GetFASTtens", [.hdl, .intRef, .dblArr, .dblArr, .dblArr, .dblArr]⟩ /- 241 -/,
   ⟨"MD_Save", "MoorDyn_Save", [.hdl, .chrArr]⟩ /- 252 -/,
   ⟨"MD_Load", "MoorDyn_Load", [.hdl, .chrArr]⟩ /- 259 -/,
   ⟨"MD_SaveVTK", "MoorDyn_SaveVTK", [.hdl, .chrArr]⟩ /- 266 -/,
   ⟨"MD_GetWavesKin", "MoorDyn_GetWavesKin", [.hdl, .dbl, .dbl, .dbl, .dbl, .dblArr, .dblArr, .dblRef, .dblRef, .hdl]⟩ /- 276 -/,
   ⟨"MD_GetDepthAt", "MoorDyn_GetDepthAt", [.hdl, .dbl, .dbl, .dblRef]⟩ /- 294 -/,
   ⟨"MD_GetAverageDepth", "MoorDyn_GetAverageDepth", [.hdl, .dblRef]⟩ /- 302 -/,
   ⟨"MD_GetMinDepth", "MoorDyn_GetMinDepth", [.hdl, .dblRef]⟩ /- 308 -/,
   ⟨"MD_GetBodyID", "MoorDyn_GetBodyID", [.hdl, .intRef]⟩ /- 317 -/,
   ⟨"MD_GetBodyType", "MoorDyn_GetBodyType", [.hdl, .intRef]⟩ /- 323 -/,
   ⟨"MD_GetBodyState", "MoorDyn_GetBodyState", [.hdl, .dblArr, .dblArr]⟩ /- 329 -/,
   ⟨"MD_GetBodyPos", "MoorDyn_GetBodyPos", [.hdl, .dblArr]⟩ /- 337 -/,
   ⟨"MD_GetBodyAngle", "MoorDyn_GetBodyAngle", [.hdl, .dblArr]⟩ /- 344 -/,
   ⟨"MD_GetBodyVel", "MoorDyn_GetBodyVel", [.hdl, .dblArr]⟩ /- 351 -/,
   ⟨"MD_GetBodyAngVel", "MoorDyn_GetBodyAngVel", [.hdl, .dblArr]⟩ /- 358 -/,
   ⟨"MD_GetBodyForce", "MoorDyn_GetBodyForce", [.hdl, .dblArr]⟩ /- 365 -/,
   ⟨"MD_GetBodyM", "MoorDyn_GetBodyM", [.hdl, .dblArr]⟩ /- 372 -/,
   ⟨"MD_SaveBodyVTK", "MoorDyn_SaveBodyVTK", [.hdl, .chrArr]⟩ /- 379 -/,
   ⟨"MD_UseBodyVTK", "MoorDyn_UseBodyVTK", [.hdl, .chrArr]⟩ /- 386 -/,
   ⟨"MD_GetRodID", "MoorDyn_GetRodID", [.hdl, .intRef]⟩ /- 396 -/,
   ⟨"MD_GetRodType", "MoorDyn_GetRodType", [.hdl, .intRef]⟩ /- 402 -/,
   ⟨"MD_GetRodForce", "MoorDyn_GetRodForce", [.hdl, .dblArr]⟩ /- 408 -/,
   ⟨"MD_GetRodM", "MoorDyn_GetRodM", [.hdl, .dblArr]⟩ /- 415 -/,
   ⟨"MD_GetRodN", "MoorDyn_GetRodN", [.hdl, .intRef]⟩ /- 422 -/,
   ⟨"MD_GetRodNumberNodes", "MoorDyn_GetRodNumberNodes", [.hdl, .intRef]⟩ /- 428 -/,
   ⟨"MD_GetRodNodePos", "MoorDyn_GetRodNodePos", [.hdl, .int, .dblArr]⟩ /- 434 -/,
   ⟨"MD_GetRodNodeVel", "MoorDyn_GetRodNodeVel", [.hdl, .int, .dblArr]⟩ /- 442 -/,
   ⟨"MD_SaveRodVTK", "MoorDyn_SaveRodVTK", [.hdl, .chrArr]⟩ /- 450 -/,
   ⟨"MD_GetPointID", "MoorDyn_GetPointID", [.hdl, .intRef]⟩ /- 460 -/,
   ⟨"MD_GetPointType", "MoorDyn_GetPointType", [.hdl, .intRef]⟩ /- 466 -/,
   ⟨"MD_GetPointPos", "MoorDyn_GetPointPos", [.hdl, .dblArr]⟩ /- 472 -/,
   ⟨"MD_GetPointVel", "MoorDyn_GetPointVel", [.hdl, .dblArr]⟩ /- 479 -/,
   ⟨"MD_GetPointForce", "MoorDyn_GetPointForce", [.hdl, .dblArr]⟩ /- 486 -/,
   ⟨"MD_GetPointM", "MoorDyn_GetPointM", [.hdl, .dblArr]⟩ /- 493 -/,
   ⟨"MD_GetPointNAttached", "MoorDyn_GetPointNAttached", [.hdl, .intRef]⟩ /- 500 -/,
   ⟨"MD_GetPointAttached", "MoorDyn_GetPointAttached", [.hdl, .int, .hdlRef, .intRef]⟩ /- 506 -/,
   ⟨"MD_SavePointVTK", "MoorDyn_SavePointVTK", [.hdl, .chrArr]⟩ /- 514 -/,
   ⟨"MD_GetLineID", "MoorDyn_GetLineID", [.hdl, .intRef]⟩ /- 524 -/,
   ⟨"MD_GetLineN", "MoorDyn_GetLineN", [.hdl, .intRef]⟩ /- 530 -/,
   ⟨"MD_GetLineNumberNodes", "MoorDyn_GetLineNumberNodes", [.hdl, .intRef]⟩ /- 536 -/,
   ⟨"MD_IsLineConstantEA", "MoorDyn_IsLineConstantEA", [.hdl, .intRef]⟩ /- 542 -/,
   ⟨"MD_GetLineConstantEA", "MoorDyn_GetLineConstantEA", [.hdl, .dblRef]⟩ /- 548 -/,
   ⟨"MD_SetLineConstantEA", "MoorDyn_SetLineConstantEA", [.hdl, .dblRef]⟩ /- 554 -/,
   ⟨"MD_IsLinePressBend", "MoorDyn_IsLinePressBend", [.hdl, .intRef]⟩ /- 560 -/,
   ⟨"MD_SetLinePressBend", "MoorDyn_SetLinePressBend", [.hdl, .intRef]⟩ /- 566 -/,
   ⟨"MD_SetLinePressInt", "MoorDyn_SetLinePressInt", [.hdl, .dblArr]⟩ /- 572 -/,
   ⟨"MD_GetLineUnstretchedLength", "MoorDyn_GetLineUnstretchedLength", [.hdl, .dblRef]⟩ /- 579 -/,
   ⟨"MD_SetLineUnstretchedLength", "MoorDyn_SetLineUnstretchedLength", [.hdl, .dbl]⟩ /- 585 -/,
   ⟨"MD_SetLineUnstretchedLengthVel", "MoorDyn_SetLineUnstretchedLengthVel", [.hdl, .dbl]⟩ /- 591 -/,
   ⟨"MD_GetLineNodePos", "MoorDyn_GetLineNodePos", [.hdl, .int, .dblArr]⟩ /- 597 -/,
   ⟨"MD_GetLineNodeVel", "MoorDyn_GetLineNodeVel", [.hdl, .int, .dblArr]⟩ /- 605 -/,
   ⟨"MD_GetLineNodeForce", "MoorDyn_GetLineNodeForce", [.hdl, .int, .dblArr]⟩ /- 613 -/,
   ⟨"MD_GetLineNodeTen", "MoorDyn_GetLineNodeTen", [.hdl, .int, .dblArr]⟩ /- 621 -/,
   ⟨"MD_GetLineNodeBendStiff", "MoorDyn_GetLineNodeBendStiff", [.hdl, .int, .dblArr]⟩ /- 629 -/,
   ⟨"MD_GetLineNodeWeight", "MoorDyn_GetLineNodeWeight", [.hdl, .int, .dblArr]⟩ /- 637 -/,
   ⟨"MD_GetLineNodeDrag", "MoorDyn_GetLineNodeDrag", [.hdl, .int, .dblArr]⟩ /- 645 -/,
   ⟨"MD_GetLineNodeFroudeKrilov", "MoorDyn_GetLineNodeFroudeKrilov", [.hdl, .int, .dblArr]⟩ /- 653 -/,
   ⟨"MD_GetLineNodeSeabedForce", "MoorDyn_GetLineNodeSeabedForce", [.hdl, .int, .dblArr]⟩ /- 661 -/,
   ⟨"MD_GetLineNodeCurv", "MoorDyn_GetLineNodeCurv", [.hdl, .int, .dblRef]⟩ /- 669 -/,
   ⟨"MD_GetLineNodeM", "MoorDyn_GetLineNodeM", [.hdl, .int, .dblArr]⟩ /- 676 -/,
   ⟨"MD_GetLineFairTen", "MoorDyn_GetLineFairTen", [.hdl, .dblRef]⟩ /- 684 -/,
   ⟨"MD_GetLineMaxTen", "MoorDyn_GetLineMaxTen", [.hdl, .dblRef]⟩ /- 690 -/,
   ⟨"MD_SaveLineVTK", "MoorDyn_SaveLineVTK", [.hdl, .chrArr]⟩ /- 696 -/]

/-! ## Calls -/

/-- What a Fortran call hands over for one parameter: an address (handles, arrays, texts and everything
passed by reference), an integer or a real number. -/
inductive FVal | addr (a : ℕ) | int (n : ℤ) | dbl (x : ℚ)
  deriving DecidableEq, Repr

/-- Whether the value is of the kind of the parameter. -/
def FVal.fits : FVal → FT → Bool
  | .int _, .int => true
  | .dbl _, .dbl => true
  | .addr _, t => t ≠ .int ∧ t ≠ .dbl
  | _, _ => false

/-- What the C function finds for a parameter; `junk`: whatever was there before the call. -/
inductive Got | addr (a : ℤ) | int (n : ℤ) | dbl (x : ℚ) | junk
  deriving DecidableEq, Repr

/-- The signed number in the low 32 bits of a register (how an `int` parameter is read). -/
def low32 (g : ℤ) : ℤ := (g + 2 ^ 31) % 2 ^ 32 - 2 ^ 31

/-- System V rules, caller: addresses and integers go to the general registers, in order
(wrappers/fortran/MoorDyn.f90:79-702, the declarations of `bind(c)` functions).  Simplification: the first six
general and eight floating point registers, enough for every function here. -/
def general : List FVal → List ℤ
  | [] => []
  | .addr a :: vs => (a : ℤ) :: general vs
  | .int n :: vs => n :: general vs
  | .dbl _ :: vs => general vs

/-- System V rules, caller: real numbers go to the floating point registers, in order. -/
def floating : List FVal → List ℚ
  | [] => []
  | .dbl x :: vs => x :: floating vs
  | _ :: vs => floating vs

/-- System V rules, the C function: each parameter takes the next register of its class; the parameters
are those of the prototype (source/MoorDyn2.h:74-539 and the other headers). -/
def receive : List CT → List ℤ → List ℚ → List Got
  | [], _, _ => []
  | .dbl :: ts, gs, x :: ss => .dbl x :: receive ts gs ss
  | .dbl :: ts, gs, [] => .junk :: receive ts gs []
  | .int :: ts, g :: gs, ss => .int (low32 g) :: receive ts gs ss
  | .int :: ts, [], ss => .junk :: receive ts [] ss
  | _ :: ts, g :: gs, ss => .addr g :: receive ts gs ss
  | _ :: ts, [], ss => .junk :: receive ts [] ss

/-- A call by the System V rules. -/
def sysV (ts : List CT) (vs : List FVal) : List Got := receive ts (general vs) (floating vs)

/-- A call by the Microsoft rules: each position has its own place; a real number and an integer or
address use different registers there. -/
def microsoft : List CT → List FVal → List Got
  | [], _ => []
  | _ :: ts, [] => .junk :: microsoft ts []
  | .dbl :: ts, .dbl x :: vs => .dbl x :: microsoft ts vs
  | .dbl :: ts, _ :: vs => .junk :: microsoft ts vs
  | _ :: ts, .dbl _ :: vs => .junk :: microsoft ts vs
  | .int :: ts, .int n :: vs => .int (low32 n) :: microsoft ts vs
  | .int :: ts, .addr a :: vs => .int (low32 a) :: microsoft ts vs
  | _ :: ts, .int n :: vs => .addr n :: microsoft ts vs
  | _ :: ts, .addr a :: vs => .addr a :: microsoft ts vs

/-- An array of single precision numbers written over an array of double precision ones: cells of four
bytes, the number `i` of the caller being made of the cells `2 i` and `2 i + 1`
(source/MoorDyn2.cpp:2624-2626, wrappers/fortran/MoorDyn.f90:774-783). -/
def overwrite (n : ℕ) (floats old : ℕ → ℕ) : ℕ → ℕ × ℕ :=
  fun i => (if 2 * i < n then floats (2 * i) else old (2 * i),
    if 2 * i + 1 < n then floats (2 * i + 1) else old (2 * i + 1))

/-! ## MATLAB -/

/-- The first `n` numbers of an array as a C function reads them; `none`: it reads past the end. -/
def readN (n : ℕ) (xs : List ℚ) : Option (List ℚ) := if n ≤ xs.length then some (xs.take n) else none

/-- How a MATLAB call ends. -/
inductive MRes (α : Type) | ok (a : α) | error (code : ℤ) | undef
  deriving DecidableEq, Repr

/-- wrappers/matlab/MoorDynM_Step.cpp:40-58: `n` coupled degrees of freedom; `f` is what `MoorDyn_Step`
returns (new time, error code and forces).  The array of the forces is made as long as the first array
given; no length is checked. -/
def matlabStep (n : ℕ) (f : List ℚ → List ℚ → ℚ → ℚ → ℚ × ℤ × List ℚ) (x xd : List ℚ) (t dt : ℚ) :
    MRes (ℚ × List ℚ) :=
  match readN n x, readN n xd with
  | some xs, some vs =>
    let (t', err, forces) := f xs vs t dt
    if err ≠ 0 then .error err else .ok (t', forces ++ List.replicate (x.length - n) 0)
  | _, _ => .undef

/-- wrappers/matlab/MoorDynM_Init.cpp:40-49 and MoorDynM_Init_NoIC.cpp. -/
def matlabInit (n : ℕ) (f : List ℚ → List ℚ → ℤ) (x xd : List ℚ) : MRes Unit :=
  match readN n x, readN n xd with
  | some xs, some vs => if f xs vs ≠ 0 then .error (f xs vs) else .ok ()
  | _, _ => .undef

/-! ## Rust -/

/-- The functions declared for Rust (wrappers/rust/bindings.rs:24-401, included by wrappers/rust/lib.rs:5), with
the C types their Rust types stand for; the line of each one is beside its entry. -/
def rust : List CFn :=
  [⟨"MoorDyn_GetWavesKin", [.hdl, .dbl, .dbl, .dbl, .dblPtr, .dblPtr, .dblPtr, .dblPtr]⟩ /- wrappers/rust/bindings.rs:26 -/,
   ⟨"MoorDyn_GetLineID", [.hdl, .intPtr]⟩ /- wrappers/rust/bindings.rs:50 -/,
   ⟨"MoorDyn_GetLineN", [.hdl, .intPtr]⟩ /- wrappers/rust/bindings.rs:57 -/,
   ⟨"MoorDyn_GetLineNumberNodes", [.hdl, .intPtr]⟩ /- wrappers/rust/bindings.rs:64 -/,
   ⟨"MoorDyn_GetLineUnstretchedLength", [.hdl, .dblPtr]⟩ /- wrappers/rust/bindings.rs:71 -/,
   ⟨"MoorDyn_GetLineNodePos", [.hdl, .int, .dblPtr]⟩ /- wrappers/rust/bindings.rs:75 -/,
   ⟨"MoorDyn_GetLineNodeTen", [.hdl, .int, .dblPtr]⟩ /- wrappers/rust/bindings.rs:83 -/,
   ⟨"MoorDyn_GetLineNodeCurv", [.hdl, .int, .dblPtr]⟩ /- wrappers/rust/bindings.rs:91 -/,
   ⟨"MoorDyn_GetLineFairTen", [.hdl, .dblPtr]⟩ /- wrappers/rust/bindings.rs:99 -/,
   ⟨"MoorDyn_GetLineMaxTen", [.hdl, .dblPtr]⟩ /- wrappers/rust/bindings.rs:103 -/,
   ⟨"MoorDyn_SaveLineVTK", [.hdl, .chrPtr]⟩ /- wrappers/rust/bindings.rs:107 -/,
   ⟨"MoorDyn_GetPointID", [.hdl, .intPtr]⟩ /- wrappers/rust/bindings.rs:121 -/,
   ⟨"MoorDyn_GetPointType", [.hdl, .intPtr]⟩ /- wrappers/rust/bindings.rs:128 -/,
   ⟨"MoorDyn_GetPointPos", [.hdl, .dblPtr]⟩ /- wrappers/rust/bindings.rs:135 -/,
   ⟨"MoorDyn_GetPointVel", [.hdl, .dblPtr]⟩ /- wrappers/rust/bindings.rs:139 -/,
   ⟨"MoorDyn_GetPointForce", [.hdl, .dblPtr]⟩ /- wrappers/rust/bindings.rs:143 -/,
   ⟨"MoorDyn_GetPointNAttached", [.hdl, .intPtr]⟩ /- wrappers/rust/bindings.rs:147 -/,
   ⟨"MoorDyn_GetPointAttached", [.hdl, .int, .hdlPtr, .intPtr]⟩ /- wrappers/rust/bindings.rs:154 -/,
   ⟨"MoorDyn_GetRodID", [.hdl, .intPtr]⟩ /- wrappers/rust/bindings.rs:170 -/,
   ⟨"MoorDyn_GetRodType", [.hdl, .intPtr]⟩ /- wrappers/rust/bindings.rs:175 -/,
   ⟨"MoorDyn_GetRodN", [.hdl, .intPtr]⟩ /- wrappers/rust/bindings.rs:182 -/,
   ⟨"MoorDyn_GetRodNumberNodes", [.hdl, .intPtr]⟩ /- wrappers/rust/bindings.rs:186 -/,
   ⟨"MoorDyn_GetRodNodePos", [.hdl, .int, .dblPtr]⟩ /- wrappers/rust/bindings.rs:193 -/,
   ⟨"MoorDyn_GetBodyID", [.hdl, .intPtr]⟩ /- wrappers/rust/bindings.rs:208 -/,
   ⟨"MoorDyn_GetBodyType", [.hdl, .intPtr]⟩ /- wrappers/rust/bindings.rs:215 -/,
   ⟨"MoorDyn_GetBodyState", [.hdl, .dblPtr, .dblPtr]⟩ /- wrappers/rust/bindings.rs:222 -/,
   ⟨"MoorDyn_Create", [.chrPtr]⟩ /- wrappers/rust/bindings.rs:234 -/,
   ⟨"MoorDyn_NCoupledDOF", [.hdl, .intPtr]⟩ /- wrappers/rust/bindings.rs:238 -/,
   ⟨"MoorDyn_SetVerbosity", [.hdl, .int]⟩ /- wrappers/rust/bindings.rs:245 -/,
   ⟨"MoorDyn_SetLogFile", [.hdl, .chrPtr]⟩ /- wrappers/rust/bindings.rs:252 -/,
   ⟨"MoorDyn_SetLogLevel", [.hdl, .int]⟩ /- wrappers/rust/bindings.rs:259 -/,
   ⟨"MoorDyn_Log", [.hdl, .int, .chrPtr]⟩ /- wrappers/rust/bindings.rs:266 -/,
   ⟨"MoorDyn_Init", [.hdl, .dblPtr, .dblPtr]⟩ /- wrappers/rust/bindings.rs:274 -/,
   ⟨"MoorDyn_Init_NoIC", [.hdl, .dblPtr, .dblPtr]⟩ /- wrappers/rust/bindings.rs:278 -/,
   ⟨"MoorDyn_Step", [.hdl, .dblPtr, .dblPtr, .dblPtr, .dblPtr, .dblPtr]⟩ /- wrappers/rust/bindings.rs:286 -/,
   ⟨"MoorDyn_Close", [.hdl]⟩ /- wrappers/rust/bindings.rs:297 -/,
   ⟨"MoorDyn_GetWaves", [.hdl]⟩ /- wrappers/rust/bindings.rs:301 -/,
   ⟨"MoorDyn_ExternalWaveKinInit", [.hdl, .intPtr]⟩ /- wrappers/rust/bindings.rs:305 -/,
   ⟨"MoorDyn_ExternalWaveKinGetN", [.hdl, .intPtr]⟩ /- wrappers/rust/bindings.rs:312 -/,
   ⟨"MoorDyn_ExternalWaveKinGetCoordinates", [.hdl, .dblPtr]⟩ /- wrappers/rust/bindings.rs:319 -/,
   ⟨"MoorDyn_ExternalWaveKinSet", [.hdl, .dblPtr, .dblPtr, .dbl]⟩ /- wrappers/rust/bindings.rs:326 -/,
   ⟨"MoorDyn_GetNumberBodies", [.hdl, .intPtr]⟩ /- wrappers/rust/bindings.rs:335 -/,
   ⟨"MoorDyn_GetBody", [.hdl, .int]⟩ /- wrappers/rust/bindings.rs:342 -/,
   ⟨"MoorDyn_GetNumberRods", [.hdl, .intPtr]⟩ /- wrappers/rust/bindings.rs:346 -/,
   ⟨"MoorDyn_GetRod", [.hdl, .int]⟩ /- wrappers/rust/bindings.rs:353 -/,
   ⟨"MoorDyn_GetNumberPoints", [.hdl, .intPtr]⟩ /- wrappers/rust/bindings.rs:357 -/,
   ⟨"MoorDyn_GetPoint", [.hdl, .int]⟩ /- wrappers/rust/bindings.rs:364 -/,
   ⟨"MoorDyn_GetNumberLines", [.hdl, .intPtr]⟩ /- wrappers/rust/bindings.rs:368 -/,
   ⟨"MoorDyn_GetLine", [.hdl, .int]⟩ /- wrappers/rust/bindings.rs:375 -/,
   ⟨"MoorDyn_GetFASTtens", [.hdl, .intPtr, .fltPtr, .fltPtr, .fltPtr, .fltPtr]⟩ /- wrappers/rust/bindings.rs:379 -/,
   ⟨"MoorDyn_Save", [.hdl, .chrPtr]⟩ /- wrappers/rust/bindings.rs:390 -/,
   ⟨"MoorDyn_Load", [.hdl, .chrPtr]⟩ /- wrappers/rust/bindings.rs:397 -/]

end MD.Foreign
