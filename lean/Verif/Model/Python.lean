import Mathlib.Data.Rat.Defs
import Mathlib.Tactic.Linarith

/-!
# The Python module

wrappers/python/moordyn/moordyn.py (the functions a user calls) and wrappers/python/cmoordyn.cpp (the C
extension they call).  Two models: the table of the functions (names, numbers of arguments, C
functions reached) and, for the functions that take lists or hand out `None`, what they do with the
references and the blocks of memory they take.
-/

namespace MD.Py

/-- wrappers/python/cmoordyn.cpp:36-42: what a capsule holds; every C function checks the name. -/
inductive Kind | moordyn | waves | seafloor | body | rod | point | line
  deriving DecidableEq, Repr

/-- The exceptions a Python caller can see here. -/
inductive Exc | type | value | runtime | name | attribute | system
  deriving DecidableEq, Repr

/-- How a Python call ends.  `undef`: the C function uses memory already released or never written.
A return of NULL without an exception set is turned by the interpreter into a SystemError. -/
inductive Res (α : Type) | ok (a : α) | exc (e : Exc) | undef
  deriving DecidableEq, Repr

/-! ## The table of the functions -/

/-- An argument of a call `cmoordyn.f(...)` in wrappers/python/moordyn/moordyn.py: a parameter of the
Python function (possibly through `list`, or with a text put in front), a literal, a local built from
a parameter, or a name that is not defined. -/
inductive Arg | param (i : ℕ) | listOf (i : ℕ) | headed (i : ℕ) | flat (i : ℕ) | const (k : ℕ) | free (x : String)
  deriving DecidableEq, Repr

/-- A function of wrappers/python/moordyn/moordyn.py: parameters without and with default values, the
function of `cmoordyn` called, the arguments passed, and the kind of instance its text of help
announces. -/
structure Fn where
  name : String
  required : ℕ
  params : ℕ
  callee : String
  args : List Arg
  doc : Option Kind
  deriving DecidableEq, Repr

/-- An entry of the table of methods, wrappers/python/cmoordyn.cpp:2736-2997: name, how many arguments the
format of `PyArg_ParseTuple` takes at least and at most, the kind of capsule asked for, and the C
function of MoorDyn called last. -/
structure CFn where
  name : String
  least : ℕ
  most : ℕ
  kind : Option Kind
  api : String
  deriving DecidableEq, Repr

/-- wrappers/python/cmoordyn.cpp:85-2740, the formats, capsules and C functions; the lines of each function
are beside its entry.  `init` calls `MoorDyn_Init` or `MoorDyn_Init_NoIC` (see `reached`). -/
def cmoordyn : List CFn :=
  [⟨"create", 0, 1, none, "MoorDyn_Create"⟩ /- 85 -/,
   ⟨"n_coupled_dof", 1, 1, some .moordyn, "MoorDyn_NCoupledDOF"⟩ /- 106 -/,
   ⟨"set_verbosity", 2, 2, some .moordyn, "MoorDyn_SetVerbosity"⟩ /- 133 -/,
   ⟨"set_logfile", 2, 2, some .moordyn, "MoorDyn_SetLogFile"⟩ /- 154 -/,
   ⟨"set_loglevel", 2, 2, some .moordyn, "MoorDyn_SetLogLevel"⟩ /- 175 -/,
   ⟨"log", 3, 3, some .moordyn, "MoorDyn_Log"⟩ /- 196 -/,
   ⟨"init", 3, 4, some .moordyn, "MoorDyn_Init"⟩ /- 218 -/,
   ⟨"step", 5, 5, some .moordyn, "MoorDyn_Step"⟩ /- 281 -/,
   ⟨"close", 1, 1, some .moordyn, "MoorDyn_Close"⟩ /- 358 -/,
   ⟨"get_waves", 1, 1, some .moordyn, "MoorDyn_GetWaves"⟩ /- 379 -/,
   ⟨"get_seafloor", 1, 1, some .moordyn, "MoorDyn_GetSeafloor"⟩ /- 405 -/,
   ⟨"ext_wave_init", 1, 1, some .moordyn, "MoorDyn_ExternalWaveKinInit"⟩ /- 431 -/,
   ⟨"ext_wave_n", 1, 1, some .moordyn, "MoorDyn_ExternalWaveKinGetN"⟩ /- 457 -/,
   ⟨"ext_wave_coords", 1, 1, some .moordyn, "MoorDyn_ExternalWaveKinGetCoordinates"⟩ /- 484 -/,
   ⟨"ext_wave_set", 4, 4, some .moordyn, "MoorDyn_ExternalWaveKinSet"⟩ /- 530 -/,
   ⟨"get_number_bodies", 1, 1, some .moordyn, "MoorDyn_GetNumberBodies"⟩ /- 594 -/,
   ⟨"get_body", 2, 2, some .moordyn, "MoorDyn_GetBody"⟩ /- 620 -/,
   ⟨"get_number_rods", 1, 1, some .moordyn, "MoorDyn_GetNumberRods"⟩ /- 647 -/,
   ⟨"get_rod", 2, 2, some .moordyn, "MoorDyn_GetRod"⟩ /- 673 -/,
   ⟨"get_number_points", 1, 1, some .moordyn, "MoorDyn_GetNumberPoints"⟩ /- 700 -/,
   ⟨"get_point", 2, 2, some .moordyn, "MoorDyn_GetPoint"⟩ /- 726 -/,
   ⟨"get_number_lines", 1, 1, some .moordyn, "MoorDyn_GetNumberLines"⟩ /- 753 -/,
   ⟨"get_line", 2, 2, some .moordyn, "MoorDyn_GetLine"⟩ /- 779 -/,
   ⟨"get_fast_tens", 2, 2, some .moordyn, "MoorDyn_GetFASTtens"⟩ /- 807 -/,
   ⟨"serialize", 1, 1, some .moordyn, "MoorDyn_Serialize"⟩ /- 870 -/,
   ⟨"deserialize", 2, 2, some .moordyn, "MoorDyn_Deserialize"⟩ /- 913 -/,
   ⟨"save", 2, 2, some .moordyn, "MoorDyn_Save"⟩ /- 940 -/,
   ⟨"load", 2, 2, some .moordyn, "MoorDyn_Load"⟩ /- 966 -/,
   ⟨"save_vtk", 2, 2, some .moordyn, "MoorDyn_SaveVTK"⟩ /- 992 -/,
   ⟨"waves_getkin", 4, 5, some .waves, "MoorDyn_GetWavesKin"⟩ /- 1017 -/,
   ⟨"seafloor_getdepth", 3, 3, some .seafloor, "MoorDyn_GetDepthAt"⟩ /- 1070 -/,
   ⟨"seafloor_getavgdepth", 1, 1, some .seafloor, "MoorDyn_GetAverageDepth"⟩ /- 1098 -/,
   ⟨"seafloor_getmindepth", 1, 1, some .seafloor, "MoorDyn_GetMinDepth"⟩ /- 1125 -/,
   ⟨"body_get_id", 1, 1, some .body, "MoorDyn_GetBodyID"⟩ /- 1155 -/,
   ⟨"body_get_type", 1, 1, some .body, "MoorDyn_GetBodyType"⟩ /- 1182 -/,
   ⟨"body_get_state", 1, 1, some .body, "MoorDyn_GetBodyState"⟩ /- 1209 -/,
   ⟨"body_get_pos", 1, 1, some .body, "MoorDyn_GetBodyPos"⟩ /- 1246 -/,
   ⟨"body_get_angle", 1, 1, some .body, "MoorDyn_GetBodyAngle"⟩ /- 1278 -/,
   ⟨"body_get_vel", 1, 1, some .body, "MoorDyn_GetBodyVel"⟩ /- 1310 -/,
   ⟨"body_get_angvel", 1, 1, some .body, "MoorDyn_GetBodyAngVel"⟩ /- 1342 -/,
   ⟨"body_get_force", 1, 1, some .body, "MoorDyn_GetBodyForce"⟩ /- 1374 -/,
   ⟨"body_get_m", 1, 1, some .body, "MoorDyn_GetBodyM"⟩ /- 1406 -/,
   ⟨"body_save_vtk", 2, 2, some .body, "MoorDyn_SaveBodyVTK"⟩ /- 1442 -/,
   ⟨"body_use_vtk", 2, 2, some .body, "MoorDyn_UseBodyVTK"⟩ /- 1463 -/,
   ⟨"rod_get_id", 1, 1, some .rod, "MoorDyn_GetRodID"⟩ /- 1487 -/,
   ⟨"rod_get_type", 1, 1, some .rod, "MoorDyn_GetRodType"⟩ /- 1514 -/,
   ⟨"rod_get_force", 1, 1, some .rod, "MoorDyn_GetRodForce"⟩ /- 1541 -/,
   ⟨"rod_get_m", 1, 1, some .rod, "MoorDyn_GetRodM"⟩ /- 1573 -/,
   ⟨"rod_get_n", 1, 1, some .rod, "MoorDyn_GetRodN"⟩ /- 1609 -/,
   ⟨"rod_get_node_pos", 2, 2, some .rod, "MoorDyn_GetRodNodePos"⟩ /- 1636 -/,
   ⟨"rod_get_node_vel", 2, 2, some .rod, "MoorDyn_GetRodNodeVel"⟩ /- 1668 -/,
   ⟨"rod_save_vtk", 2, 2, some .rod, "MoorDyn_SaveRodVTK"⟩ /- 1700 -/,
   ⟨"point_get_id", 1, 1, some .point, "MoorDyn_GetPointID"⟩ /- 1724 -/,
   ⟨"point_get_type", 1, 1, some .point, "MoorDyn_GetPointType"⟩ /- 1751 -/,
   ⟨"point_get_pos", 1, 1, some .point, "MoorDyn_GetPointPos"⟩ /- 1778 -/,
   ⟨"point_get_vel", 1, 1, some .point, "MoorDyn_GetPointVel"⟩ /- 1809 -/,
   ⟨"point_get_force", 1, 1, some .point, "MoorDyn_GetPointForce"⟩ /- 1840 -/,
   ⟨"point_get_m", 1, 1, some .point, "MoorDyn_GetPointM"⟩ /- 1871 -/,
   ⟨"point_get_nattached", 1, 1, some .point, "MoorDyn_GetPointNAttached"⟩ /- 1907 -/,
   ⟨"point_get_attached", 2, 2, some .point, "MoorDyn_GetPointAttached"⟩ /- 1934 -/,
   ⟨"point_save_vtk", 2, 2, some .point, "MoorDyn_SavePointVTK"⟩ /- 1966 -/,
   ⟨"line_get_id", 1, 1, some .line, "MoorDyn_GetLineID"⟩ /- 1990 -/,
   ⟨"line_get_n", 1, 1, some .line, "MoorDyn_GetLineN"⟩ /- 2017 -/,
   ⟨"line_get_ulen", 1, 1, some .line, "MoorDyn_GetLineUnstretchedLength"⟩ /- 2044 -/,
   ⟨"line_set_ulen", 2, 2, some .line, "MoorDyn_SetLineUnstretchedLength"⟩ /- 2071 -/,
   ⟨"line_set_ulenv", 2, 2, some .line, "MoorDyn_SetLineUnstretchedLengthVel"⟩ /- 2098 -/,
   ⟨"line_is_const_ea", 1, 1, some .line, "MoorDyn_IsLineConstantEA"⟩ /- 2125 -/,
   ⟨"line_get_const_ea", 1, 1, some .line, "MoorDyn_GetLineConstantEA"⟩ /- 2152 -/,
   ⟨"line_set_const_ea", 2, 2, some .line, "MoorDyn_SetLineConstantEA"⟩ /- 2179 -/,
   ⟨"line_is_pbend", 1, 1, some .line, "MoorDyn_IsLinePressBend"⟩ /- 2206 -/,
   ⟨"line_set_pbend", 2, 2, some .line, "MoorDyn_SetLinePressBend"⟩ /- 2233 -/,
   ⟨"line_set_pint", 2, 2, some .line, "MoorDyn_SetLinePressInt"⟩ /- 2260 -/,
   ⟨"line_get_node_pos", 2, 2, some .line, "MoorDyn_GetLineNodePos"⟩ /- 2312 -/,
   ⟨"line_get_node_vel", 2, 2, some .line, "MoorDyn_GetLineNodeVel"⟩ /- 2344 -/,
   ⟨"line_get_node_force", 2, 2, some .line, "MoorDyn_GetLineNodeForce"⟩ /- 2376 -/,
   ⟨"line_get_node_ten", 2, 2, some .line, "MoorDyn_GetLineNodeTen"⟩ /- 2408 -/,
   ⟨"line_get_node_bend", 2, 2, some .line, "MoorDyn_GetLineNodeBendStiff"⟩ /- 2440 -/,
   ⟨"line_get_node_w", 2, 2, some .line, "MoorDyn_GetLineNodeWeight"⟩ /- 2472 -/,
   ⟨"line_get_node_drag", 2, 2, some .line, "MoorDyn_GetLineNodeDrag"⟩ /- 2504 -/,
   ⟨"line_get_node_froudekrylov", 2, 2, some .line, "MoorDyn_GetLineNodeFroudeKrilov"⟩ /- 2536 -/,
   ⟨"line_get_node_seabed", 2, 2, some .line, "MoorDyn_GetLineNodeSeabedForce"⟩ /- 2568 -/,
   ⟨"line_get_node_curv", 2, 2, some .line, "MoorDyn_GetLineNodeCurv"⟩ /- 2600 -/,
   ⟨"line_get_node_m", 2, 2, some .line, "MoorDyn_GetLineNodeM"⟩ /- 2628 -/,
   ⟨"line_get_fairlead_tension", 1, 1, some .line, "MoorDyn_GetLineFairTen"⟩ /- 2666 -/,
   ⟨"line_get_max_tension", 1, 1, some .line, "MoorDyn_GetLineMaxTen"⟩ /- 2693 -/,
   ⟨"line_save_vtk", 2, 2, some .line, "MoorDyn_SaveLineVTK"⟩ /- 2720 -/]

/-- wrappers/python/moordyn/moordyn.py:65-1380, all functions of the module; the line of each one is beside
its entry. -/
def moordyn : List Fn :=
  [⟨"Create", 0, 1, "create", [.param 0], none⟩ /- 65 -/,
   ⟨"NCoupledDOF", 1, 1, "n_coupled_dof", [.param 0], some .moordyn⟩ /- 79 -/,
   ⟨"SetVerbosity", 2, 2, "set_verbosity", [.param 0, .param 1], some .moordyn⟩ /- 92 -/,
   ⟨"SetLogFile", 2, 2, "set_logfile", [.param 0, .param 1], some .moordyn⟩ /- 111 -/,
   ⟨"SetLogLevel", 2, 2, "set_loglevel", [.param 0, .param 1], some .moordyn⟩ /- 125 -/,
   ⟨"Log", 3, 3, "log", [.param 0, .param 1, .headed 2], some .moordyn⟩ /- 144 -/,
   ⟨"Init", 3, 3, "init", [.param 0, .listOf 1, .listOf 2, .const 0], some .moordyn⟩ /- 177 -/,
   ⟨"Init_NoIC", 3, 3, "init", [.param 0, .listOf 1, .listOf 2, .const 1], some .moordyn⟩ /- 195 -/,
   ⟨"Step", 5, 5, "step", [.param 0, .listOf 1, .listOf 2, .param 3, .param 4], some .moordyn⟩ /- 214 -/,
   ⟨"Close", 1, 1, "close", [.param 0], some .moordyn⟩ /- 231 -/,
   ⟨"GetWaves", 1, 1, "get_waves", [.param 0], some .moordyn⟩ /- 244 -/,
   ⟨"GetSeafloor", 1, 1, "get_seafloor", [.param 0], some .moordyn⟩ /- 260 -/,
   ⟨"ExternalWaveKinInit", 1, 1, "ext_wave_init", [.param 0], some .moordyn⟩ /- 278 -/,
   ⟨"ExternalWaveKinGetN", 1, 1, "ext_wave_init", [.param 0], some .moordyn⟩ /- 294 -/,
   ⟨"GetWaveKinCoordinates", 1, 1, "ext_wave_coords", [.param 0], some .moordyn⟩ /- 309 -/,
   ⟨"SetWaveKin", 4, 4, "ext_wave_set", [.param 0, .flat 1, .flat 2, .param 3], some .moordyn⟩ /- 331 -/,
   ⟨"GetNumberBodies", 1, 1, "get_number_bodies", [.param 0], some .moordyn⟩ /- 358 -/,
   ⟨"GetBody", 2, 2, "get_body", [.param 0, .param 1], some .moordyn⟩ /- 373 -/,
   ⟨"GetNumberRods", 1, 1, "get_number_rods", [.param 0], some .moordyn⟩ /- 389 -/,
   ⟨"GetRod", 2, 2, "get_rod", [.param 0, .param 1], some .moordyn⟩ /- 404 -/,
   ⟨"GetNumberPoints", 1, 1, "get_number_points", [.param 0], some .moordyn⟩ /- 420 -/,
   ⟨"GetPoint", 2, 2, "get_point", [.param 0, .param 1], some .moordyn⟩ /- 435 -/,
   ⟨"GetNumberLines", 1, 1, "get_number_lines", [.param 0], some .moordyn⟩ /- 451 -/,
   ⟨"GetLine", 2, 2, "get_line", [.param 0, .param 1], some .moordyn⟩ /- 466 -/,
   ⟨"GetFASTtens", 2, 2, "get_fast_tens", [.param 0, .param 1], some .moordyn⟩ /- 482 -/,
   ⟨"Serialize", 1, 1, "serialize", [.param 0], some .moordyn⟩ /- 501 -/,
   ⟨"Deserialize", 2, 2, "deserialize", [.param 0, .param 1], some .moordyn⟩ /- 515 -/,
   ⟨"Save", 2, 2, "save", [.param 0, .param 1], some .moordyn⟩ /- 529 -/,
   ⟨"Load", 2, 2, "load", [.param 0, .param 1], some .moordyn⟩ /- 544 -/,
   ⟨"SaveVTK", 2, 2, "save_vtk", [.param 0, .param 1], some .moordyn⟩ /- 561 -/,
   ⟨"GetWavesKin", 5, 6, "waves_getkin", [.param 0, .param 1, .param 2, .param 3, .param 4, .param 5], some .waves⟩ /- 579 -/,
   ⟨"GetDepthAt", 3, 3, "seafloor_getdepth", [.param 0, .param 1, .param 2], some .seafloor⟩ /- 604 -/,
   ⟨"GetAverageDepth", 1, 1, "seafloor_getavgdepth", [.param 0], some .seafloor⟩ /- 619 -/,
   ⟨"GetMinDepth", 1, 1, "seafloor_getmindepth", [.param 0], some .seafloor⟩ /- 637 -/,
   ⟨"GetBodyID", 1, 1, "body_get_id", [.param 0], some .body⟩ /- 653 -/,
   ⟨"GetBodyType", 1, 1, "body_get_type", [.param 0], some .body⟩ /- 666 -/,
   ⟨"GetBodyState", 1, 1, "body_get_state", [.param 0], some .body⟩ /- 679 -/,
   ⟨"GetBodyPos", 1, 1, "body_get_pos", [.param 0], some .body⟩ /- 693 -/,
   ⟨"GetBodyAngle", 1, 1, "body_get_angle", [.param 0], some .body⟩ /- 706 -/,
   ⟨"GetBodyVel", 1, 1, "body_get_vel", [.param 0], some .body⟩ /- 719 -/,
   ⟨"GetBodyAngVel", 1, 1, "body_get_angvel", [.param 0], some .body⟩ /- 732 -/,
   ⟨"GetBodyForce", 1, 1, "body_get_force", [.param 0], some .body⟩ /- 745 -/,
   ⟨"GetBodyM", 1, 1, "body_get_m", [.param 0], some .body⟩ /- 758 -/,
   ⟨"SaveBodyVTK", 2, 2, "body_save_vtk", [.param 0, .param 1], some .body⟩ /- 771 -/,
   ⟨"UseBodyVTK", 2, 2, "use_save_vtk", [.param 0, .param 1], some .body⟩ /- 785 -/,
   ⟨"GetRodID", 1, 1, "rod_get_id", [.param 0], some .rod⟩ /- 802 -/,
   ⟨"GetRodType", 1, 1, "rod_get_type", [.param 0], some .rod⟩ /- 815 -/,
   ⟨"GetRodForce", 1, 1, "rod_get_force", [.param 0], some .rod⟩ /- 828 -/,
   ⟨"GetRodM", 1, 1, "rod_get_m", [.param 0], some .rod⟩ /- 841 -/,
   ⟨"GetRodN", 1, 1, "rod_get_n", [.param 0], some .rod⟩ /- 854 -/,
   ⟨"GetRodNodePos", 2, 2, "rod_get_node_pos", [.param 0, .param 1], some .rod⟩ /- 867 -/,
   ⟨"GetRodNodeVel", 2, 2, "rod_get_node_vel", [.param 0, .param 1], some .rod⟩ /- 881 -/,
   ⟨"SaveRodVTK", 2, 2, "rod_save_vtk", [.param 0, .param 1], some .rod⟩ /- 895 -/,
   ⟨"GetPointID", 1, 1, "point_get_id", [.param 0], some .point⟩ /- 912 -/,
   ⟨"GetPointType", 1, 1, "point_get_type", [.param 0], some .point⟩ /- 925 -/,
   ⟨"GetPointPos", 1, 1, "point_get_pos", [.param 0], some .point⟩ /- 938 -/,
   ⟨"GetPointVel", 1, 1, "point_get_vel", [.param 0], some .point⟩ /- 951 -/,
   ⟨"GetPointForce", 1, 1, "point_get_force", [.param 0], some .point⟩ /- 964 -/,
   ⟨"GetPointM", 1, 1, "point_get_m", [.param 0], some .point⟩ /- 977 -/,
   ⟨"GetPointNAttached", 1, 1, "point_get_nattached", [.param 0], some .point⟩ /- 990 -/,
   ⟨"GetPointAttached", 2, 2, "point_get_attached", [.param 0, .param 1], some .point⟩ /- 1003 -/,
   ⟨"SavePointVTK", 2, 2, "point_save_vtk", [.param 0, .param 1], some .point⟩ /- 1018 -/,
   ⟨"GetLineID", 1, 1, "line_get_id", [.param 0], some .line⟩ /- 1035 -/,
   ⟨"GetLineN", 1, 1, "line_get_n", [.param 0], some .line⟩ /- 1048 -/,
   ⟨"GetLineUnstretchedLength", 1, 1, "line_get_ulen", [.param 0], some .line⟩ /- 1061 -/,
   ⟨"SetLineUnstretchedLength", 2, 2, "line_set_ulen", [.param 0, .param 1], some .line⟩ /- 1074 -/,
   ⟨"SetLineUnstretchedLengthVel", 2, 2, "line_set_ulenv", [.param 0, .param 1], some .line⟩ /- 1085 -/,
   ⟨"IsLineConstantEA", 1, 1, "line_is_const_ea", [.param 0], some .line⟩ /- 1096 -/,
   ⟨"GetLineConstantEA", 1, 1, "line_get_const_ea", [.param 0], some .line⟩ /- 1111 -/,
   ⟨"SetLineConstantEA", 2, 2, "line_set_const_ea", [.param 0, .param 1], some .line⟩ /- 1126 -/,
   ⟨"IsLinePressBend", 1, 1, "line_is_pbend", [.free "b"], some .line⟩ /- 1139 -/,
   ⟨"SetLinePressBend", 2, 2, "line_set_pbend", [.param 0, .param 1], some .line⟩ /- 1152 -/,
   ⟨"SetLinePressInt", 2, 2, "line_set_pint", [.param 0, .listOf 1], some .moordyn⟩ /- 1166 -/,
   ⟨"GetLineNodePos", 2, 2, "line_get_node_pos", [.param 0, .param 1], some .line⟩ /- 1177 -/,
   ⟨"GetLineNodeVel", 2, 2, "line_get_node_vel", [.param 0, .param 1], some .line⟩ /- 1191 -/,
   ⟨"GetLineNodeForce", 2, 2, "line_get_node_force", [.param 0, .param 1], some .line⟩ /- 1205 -/,
   ⟨"GetLineNodeTen", 2, 2, "line_get_node_ten", [.param 0, .param 1], some .line⟩ /- 1229 -/,
   ⟨"GetLineNodeBendStiff", 2, 2, "line_get_node_bend", [.param 0, .param 1], some .line⟩ /- 1245 -/,
   ⟨"GetLineNodeWeight", 2, 2, "line_get_node_w", [.param 0, .param 1], some .line⟩ /- 1259 -/,
   ⟨"GetLineNodeDrag", 2, 2, "line_get_node_drag", [.param 0, .param 1], some .line⟩ /- 1273 -/,
   ⟨"GetLineNodeFroudeKrilov", 2, 2, "line_get_node_froudekrylov", [.param 0, .param 1], some .line⟩ /- 1287 -/,
   ⟨"GetLineNodeSeabedForce", 2, 2, "line_get_node_froudekrylov", [.param 0, .param 1], some .line⟩ /- 1301 -/,
   ⟨"GetLineNodeCurv", 2, 2, "line_get_node_curv", [.param 0, .param 1], some .line⟩ /- 1315 -/,
   ⟨"GetLineNodeM", 2, 2, "line_get_node_m", [.param 0, .param 1], some .line⟩ /- 1329 -/,
   ⟨"GetLineFairTen", 1, 1, "line_get_fairlead_tension", [.param 0], some .line⟩ /- 1343 -/,
   ⟨"GetLineMaxTen", 1, 1, "line_get_max_tension", [.param 0], some .line⟩ /- 1356 -/,
   ⟨"SaveLineVTK", 2, 2, "line_save_vtk", [.param 0, .param 1], some .line⟩ /- 1369 -/]
/-- How many arguments of each call the parser of the format accepts and which C function is reached;
wrappers/python/cmoordyn.cpp:258-263: a fourth argument other than zero makes `init` call
`MoorDyn_Init_NoIC`. -/
def reached (c : CFn) (args : List Arg) : String :=
  if c.name = "init" ∧ args[3]? ≠ none ∧ args[3]? ≠ some (.const 0) then "MoorDyn_Init_NoIC" else c.api

/-- What happens when `moordyn.f` is called with `n` arguments, up to the C function it reaches: the
number of arguments is checked by Python; then `cmoordyn.f` is looked up; then the arguments are
evaluated; then `PyArg_ParseTuple` checks their number.
wrappers/python/moordyn/moordyn.py:65-1380, wrappers/python/cmoordyn.cpp:85-2735.
Simplification: the types of the arguments are checked further down (`Obj`). -/
def call (f : Fn) (n : ℕ) : Res String :=
  if n < f.required ∨ f.params < n then .exc .type
  else match cmoordyn.find? (fun c => c.name = f.callee) with
    | none => .exc .attribute
    | some c =>
      if f.args.any (fun a => match a with | .free _ => true | _ => false) then .exc .name
      else if f.args.length < c.least ∨ c.most < f.args.length then .exc .type
      else .ok (reached c f.args)

/-- The same, asked by name; `none`: the module has no such function. -/
def callNamed (name : String) (n : ℕ) : Option (Res String) :=
  (moordyn.find? (fun f => f.name = name)).map (fun f => call f n)

/-! ## What the calls do with memory -/

/-- A Python value as the C functions look at it: a number, a sequence (each item either a number or
not convertible to one by `float`), bytes, a capsule (the kind of object and the system it belongs
to), or anything else. -/
inductive Obj | num (x : ℚ) | seq (xs : List (Option ℚ)) | bytes (b : List ℕ) | cap (k : Kind) (p : ℕ) | other
  deriving DecidableEq, Repr

/-- The systems in memory (`none`: never created or already closed), the blocks obtained with `malloc`
and not yet freed, the references to sequences taken and not yet given back, and the references the
interpreter still holds to `None`. -/
structure World (σ : Type) where
  sys : ℕ → Option σ
  arrays : ℕ
  refs : ℕ
  nones : ℤ

namespace World
variable {σ : Type} (w : World σ)

/-- Take a reference, wrappers/python/cmoordyn.cpp:235, `PySequence_Fast`. -/
def hold : World σ := { w with refs := w.refs + 1 }
/-- Give a reference back, wrappers/python/cmoordyn.cpp:256, `Py_DECREF`. -/
def drop : World σ := { w with refs := w.refs - 1 }
/-- wrappers/python/cmoordyn.cpp:52, `malloc` (modelled as never failing). -/
def alloc : World σ := { w with arrays := w.arrays + 1 }
/-- wrappers/python/cmoordyn.cpp:270, `free`. -/
def free : World σ := { w with arrays := w.arrays - 1 }
/-- The system `p` changed by a function of MoorDyn. -/
def put (p : ℕ) (s : Option σ) : World σ := { w with sys := fun q => if q = p then s else w.sys q }
/-- `return Py_None` without `Py_INCREF`: the caller drops a reference nobody took. -/
def stealNone : World σ := { w with nones := w.nones - 1 }

end World

/-- The C functions of MoorDyn used: each returns the new state and its error code. -/
structure Api (σ : Type) where
  nDof : σ → ℕ
  init : σ → Bool → List ℚ → List ℚ → σ × ℤ
  step : σ → List ℚ → List ℚ → ℚ → ℚ → σ × ℤ × (ℕ → ℚ)
  waveInit : σ → σ × ℤ
  waveN : σ → ℕ
  waveSet : σ → List ℚ → List ℚ → ℚ → σ × ℤ
  lineN : σ → ℕ
  pressInt : σ → List ℚ → σ × ℤ

variable {σ : Type}

/-- `PySequence_Fast`, as used in wrappers/python/cmoordyn.cpp:235-237: only sequences. -/
def fast : Obj → Option (List (Option ℚ))
  | .seq xs => some xs
  | _ => none

/-- wrappers/python/cmoordyn.cpp:48-73 `py_iterable_to_double`: the values, or `none` (a TypeError, the block
freed) at the first item that is not a number. -/
def toDouble : List (Option ℚ) → Option (List ℚ)
  | [] => some []
  | none :: _ => none
  | some x :: xs => (toDouble xs).map (x :: ·)

/-- wrappers/python/cmoordyn.cpp:234-260 (`init`), 297-323 (`step`) and 553-579 (`ext_wave_set`): two sequences
of `n` numbers turned into two blocks.  The references taken before a refusal are not given back, and
neither is the block of the one sequence that could be read. -/
def twoLists (n : ℕ) (x v : Obj) (w : World σ) : Res (List ℚ × List ℚ) × World σ :=
  match fast x with
  | none => (.exc .type, w)
  | some xs =>
    if xs.length ≠ n then (.exc .value, w.hold)
    else match fast v with
      | none => (.exc .type, w.hold)
      | some vs =>
        if vs.length ≠ n then (.exc .value, w.hold.hold)
        else match toDouble xs, toDouble vs with
          | some xa, some va => (.ok (xa, va), w.hold.hold.alloc.drop.alloc.drop)
          | some _, none => (.exc .type, w.hold.hold.alloc.drop.drop)
          | none, some _ => (.exc .type, w.hold.hold.drop.alloc.drop)
          | none, none => (.exc .type, w.hold.hold.drop.drop)

/-- `PyCapsule_GetPointer`, wrappers/python/cmoordyn.cpp:226-229: a capsule of another kind, or no capsule at
all, is refused with a ValueError; a capsule of a system already closed still holds the old
pointer. -/
def withSystem {α : Type} (k : Kind) (c : Obj) (w : World σ) (f : ℕ → σ → Res α × World σ) :
    Res α × World σ :=
  match c with
  | .cap k' p =>
    if k' = k then match w.sys p with
      | none => (.undef, w)
      | some s => f p s
    else (.exc .value, w)
  | _ => (.exc .value, w)

/-- wrappers/python/cmoordyn.cpp:217-274 `init`, called by `moordyn.Init` and `moordyn.Init_NoIC`. -/
def init (api : Api σ) (noIC : Bool) (c x v : Obj) (w : World σ) : Res ℤ × World σ :=
  withSystem .moordyn c w fun p s =>
    match twoLists (api.nDof s) x v w with
    | (.ok (xa, va), w) =>
      let (s', err) := api.init s noIC xa va
      (.ok err, (w.put p (some s')).free.free)
    | (.exc e, w) => (.exc e, w)
    | (.undef, w) => (.undef, w)

/-- wrappers/python/cmoordyn.cpp:280-351 `step`: on an error of MoorDyn the block of the forces is not
freed. -/
def step (api : Api σ) (c x v : Obj) (t dt : ℚ) (w : World σ) : Res (List ℚ) × World σ :=
  withSystem .moordyn c w fun p s =>
    match twoLists (api.nDof s) x v w with
    | (.ok (xa, va), w) =>
      let w := w.alloc
      let (s', err, forces) := api.step s xa va t dt
      let w := (w.put p (some s')).free.free
      if err ≠ 0 then (.exc .runtime, w)
      else (.ok ((List.range (api.nDof s)).map forces), w.free)
    | (.exc e, w) => (.exc e, w)
    | (.undef, w) => (.undef, w)

/-- wrappers/python/cmoordyn.cpp:357-373 `close`: the capsule keeps the pointer. -/
def close (c : Obj) (w : World σ) : Res ℤ × World σ :=
  withSystem .moordyn c w fun p _ => (.ok 0, w.put p none)

/-- wrappers/python/cmoordyn.cpp:430-453 `ext_wave_init`: the error code is returned, not the number of
points. -/
def extWaveInit (api : Api σ) (c : Obj) (w : World σ) : Res ℤ × World σ :=
  withSystem .moordyn c w fun p s =>
    let (s', err) := api.waveInit s
    if err ≠ 0 then (.exc .runtime, w.put p (some s')) else (.ok err, w.put p (some s'))

/-- wrappers/python/cmoordyn.cpp:459-482 `ext_wave_n`; `MoorDyn_ExternalWaveKinGetN` never fails
(source/MoorDyn2.cpp:2469-2474). -/
def extWaveN (api : Api σ) (c : Obj) (w : World σ) : Res ℤ × World σ :=
  withSystem .moordyn c w fun _ s => (.ok (api.waveN s), w)

/-- wrappers/python/moordyn/moordyn.py:280-306, `ExternalWaveKinInit` and `ExternalWaveKinGetN`: the same
call. -/
def ExternalWaveKinGetN (api : Api σ) (c : Obj) (w : World σ) : Res ℤ × World σ := extWaveInit api c w

/-- wrappers/python/cmoordyn.cpp:529-587 `ext_wave_set`. -/
def extWaveSet (api : Api σ) (c u a : Obj) (t : ℚ) (w : World σ) : Res ℤ × World σ :=
  withSystem .moordyn c w fun p s =>
    match twoLists (api.waveN s * 3) u a w with
    | (.ok (ua, aa), w) =>
      let (s', err) := api.waveSet s ua aa t
      (.ok err, (w.put p (some s')).free.free)
    | (.exc e, w) => (.exc e, w)
    | (.undef, w) => (.undef, w)

/-- wrappers/python/cmoordyn.cpp:911-985 and 2070-2118, 2178-2199, 2232-2253: `deserialize` (of bytes), `save`,
`load`, `line_set_ulen`, `line_set_ulenv`, `line_set_const_ea` and `line_set_pbend`: a function of
MoorDyn is called; an error raises, success returns `None` without taking a reference to it. -/
def noneCall (k : Kind) (op : σ → σ × ℤ) (c : Obj) (w : World σ) : Res Unit × World σ :=
  withSystem k c w fun p s =>
    let (s', err) := op s
    if err ≠ 0 then (.exc .runtime, w.put p (some s')) else (.ok (), (w.put p (some s')).stealNone)

/-- wrappers/python/cmoordyn.cpp:911-933 `deserialize`: anything but bytes returns NULL without an
exception; `op` is `MoorDyn_Deserialize`, which is not told how many bytes there are. -/
def deserialize (op : List ℕ → σ → σ × ℤ) (c : Obj) (data : Obj) (w : World σ) : Res Unit × World σ :=
  match data with
  | .bytes b => noneCall .moordyn (op b) c w
  | _ => withSystem .moordyn c w fun _ _ => (.exc .system, w)

/-- wrappers/python/cmoordyn.cpp:2259-2305 `line_set_pint`: one value for each node. -/
def linePressInt (api : Api σ) (c x : Obj) (w : World σ) : Res Unit × World σ :=
  withSystem .line c w fun p s =>
    match fast x with
    | none => (.exc .type, w)
    | some xs =>
      if xs.length ≠ api.lineN s + 1 then (.exc .value, w.hold)
      else match toDouble xs with
        | none => (.exc .type, w.hold.drop)
        | some pin =>
          let w := w.hold.alloc.drop
          let (s', err) := api.pressInt s pin
          let w := (w.put p (some s')).free
          if err ≠ 0 then (.exc .runtime, w) else (.ok (), w.stealNone)

/-- wrappers/python/cmoordyn.cpp:2235-2246: the format `b` writes one byte of the `int b` declared without a
value: `given` is the byte (0 for False, 1 for True), `junk` what the other three held before (a
little endian machine). -/
def pressBendFlag (given junk : ℕ) : ℕ := given + 256 * junk

/-- source/Line.cpp:1649-1658 `MoorDyn_SetLinePressBend`: any value other than zero switches the pressure
bending on. -/
def pressBendOn (b : ℕ) : Bool := b ≠ 0

end MD.Py
