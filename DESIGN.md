# MoorDyn formal model: design

Target: FloatingArrayDesign/MoorDyn (C++), the pinned commit in `/repo`. The code is read as text; it
is neither built nor run. The model is in Lean 4 (4.33.0) with Mathlib, project `/verif/lean`.

## Layout

* `lean/Verif/Model/*.lean` – the model: functions following the C++ ones, each with a comment citing
  file and lines in `/repo` and the simplifications made.
* `lean/Verif/Spec/*.lean` – specifications that are longer than a few lines (shorter ones are at the
  top of the file with the theorems).
* `lean/Verif/Lemmas/*.lean` – helpers.
* `lean/Verif/Props/*.lean` – the property theorems (`C01_...`), with `example`s that exhibit
  non-trivial cases meeting their hypotheses.
* `properties.jsonl` – the claims; `MANIFEST.json` – claim to theorems; `AXIOMS.txt` – axioms of every
  theorem of the manifest; `seeded/LOG.jsonl` – wrong programs tried against the theorems. Some fifty
  records of an earlier run, where two runs had shared a scratch copy, were thrown away and the edits tried again,
  but for ten of `Model/Moored`.

## Conventions

* `real`/`double` is modelled by an ordered field: `ℝ` when square roots, trigonometric functions or
  limits are needed (`ℂ` in the Fourier transform), otherwise any linear ordered field, so that the
  model runs on `ℚ`. Rounding, overflow to infinity and NaN are not modelled unless the property is
  about them: C03 models significand and exponent of doubles exactly, and quotients 0/0 that the code
  can reach are an outcome of their own (`none`, or a constructor) and not the `x / 0 = 0` of Lean.
* `unsigned int` and `uint64_t` arithmetic that can wrap and matters is modelled with explicit
  `% 2^n`; otherwise `ℕ`.
* C++ exceptions are `Except` values or constructors; undefined behaviour (access outside a vector,
  null dereference, uninitialised reads) is a distinct outcome (`none`, `ub`), never a default value.
* If the code violates a property the negation is proved (`..._false`) and the part that does hold is
  proved as `..._partial`. A claim is `proved` in the manifest only if the property holds as it is
  written for the code modelled; every other one is `partial`, and its note says what is missing.
* Solvers of linear systems (Eigen) are represented by the equation they solve, loops until
  convergence by fuel and a theorem that the fuel suffices, or by a well-founded recursion.
* Objects the property does not look into are black boxes: the integration schemes are proved for
  every system of objects, the failure loop for every behaviour of a step, and so on.

## Shapes of proofs

* round-trip laws: snapshots (C01–C05), tokenisers (C52), packing of wave kinematics (C24), coordinates
  of rods (C38), Fourier transform (C73);
* invariants by induction over operations: clock and states (C06–C15), attachment lists (C16–C19), the
  legacy interface (C45), log (C53), registries (C18);
* refinement: interpolation (C21), seabed (C22), grids (C23, C58–C60, C74–C77), input file (C48–C51,
  C70), output channels (C72);
* decision logic: C interface (C43, C44), scheme names (C55), initial conditions (C57, C71);
* laws of mechanics as specification: momentum, energy, Archimedes, Newton, rigid bodies (C26–C42,
  C62–C69, C78).

## Trusted base

* Lean's kernel (4.33.0) and the part of Mathlib imported, which it checks as well.
* The axioms `propext`, `Classical.choice` and `Quot.sound`, no others; `AXIOMS.txt` has the axioms of
  every theorem of the manifest as printed by `#print axioms`. No `sorry`, `admit`, own axioms,
  `native_decide`, `bv_decide`, `implemented_by` or `unsafe`.
* The hand translation of the cited C++ lines into the definitions of the model, which nothing checks
  but reading. The same holds for what is taken from the C++ standard (meaning of `stod`, `stoi`,
  streams, vectors) and Eigen (algebra of vectors, matrices and quaternions).
* That real arithmetic is close enough to floating point for the purpose of the reader.

Axioms found for the 907 theorems of the manifest:

* 777 theorems: Classical.choice, Quot.sound, propext
* 83 theorems: Quot.sound, propext
* 39 theorems: propext
* 8 theorems: no axioms

## Modules of the model

| module | what | definitions |
|---|---|---|
| `Model/Api` | Model of the C API: error codes, exceptions, handles, the legacy interface | 42 |
| `Model/Attach` | Model of line attachments and failures | 12 |
| `Model/Body` | Model of points and bodies (`source/Point.cpp`, `source/Body.cpp`) | 23 |
| `Model/BodyRow` | The rows of the section of bodies | 3 |
| `Model/CFL` | Model of `source/Util/CFL.hpp` and of the choice of the internal time step | 11 |
| `Model/Catenary` | Model of the quasi-static catenary solver `Catenary`, source/QSlines.hpp:84-597, and of its use | 38 |
| `Model/Channel` | Model of the output channels | 32 |
| `Model/Coupled` | Model of the motion imposed on coupled bodies and rods | 6 |
| `Model/FFT` | Model of the fast Fourier transform: `source/kiss_fft.cpp` and `source/kiss_fftr.cpp` | 18 |
| `Model/Failures` | The rows of the section of failures | 7 |
| `Model/Foreign` | The Fortran module, the Rust declarations and the MATLAB functions | 21 |
| `Model/Gear` | Model of the whole, with the formulas of the code | 20 |
| `Model/IC` | Model of the generation of the initial conditions | 18 |
| `Model/IO` | Model of the snapshot files (`source/IO.cpp`) | 56 |
| `Model/Interp` | Model of `source/Util/Interp.hpp` | 13 |
| `Model/Layout` | Model of the exchange arrays of coupled objects | 15 |
| `Model/Line` | Model of the forces on a line (`source/Line.cpp`, `source/Line.hpp`) | 59 |
| `Model/LineRow` | The rows of the section of lines | 3 |
| `Model/LineType` | Model of the line types: from the row of the input file to the properties of a line | 13 |
| `Model/Log` | Model of the log | 18 |
| `Model/Matlab` | The MATLAB functions | 32 |
| `Model/Matrix` | Model of the 3x3 and 6x6 matrix helpers (`source/Misc.hpp`, `source/Misc.cpp`) | 23 |
| `Model/Moored` | Model of a system of lines and points as the integrators see it | 28 |
| `Model/Motion` | Model of the objects moved by the local clock of the integrator | 16 |
| `Model/Options` | Model of the options of the input file | 23 |
| `Model/Output` | Model of the output files | 22 |
| `Model/PointRow` | The rows of the section of points | 2 |
| `Model/Pointers` | Model of the pointers given to `MoorDyn_Init` and `MoorDyn_Step` | 7 |
| `Model/Python` | The Python module | 36 |
| `Model/Reader` | Model of the reading of the input file | 35 |
| `Model/Registry` | Model of the registration of objects in an integrator | 6 |
| `Model/Relax` | The relaxation factor of the implicit schemes | 4 |
| `Model/Rod` | Model of rods (`source/Rod.cpp`, `source/Rod.hpp`) | 63 |
| `Model/RodRow` | The rows of the section of rods | 2 |
| `Model/RodType` | Model of the rod types: from the row of the input file to the properties of a rod | 3 |
| `Model/Rotation` | Model of the orientation of bodies and rods | 18 |
| `Model/Rounded` | The time loop with rounded numbers | 5 |
| `Model/Scheme` | Model of the choice of the time scheme | 11 |
| `Model/SeaFiles` | Model of the reading of the files that describe the sea | 26 |
| `Model/Seafloor` | Model of `source/Seafloor.cpp` | 7 |
| `Model/Snapshot` | Model of the snapshots of the objects | 34 |
| `Model/Spectrum` | Model of `source/Waves/SpectrumKin.cpp` | 9 |
| `Model/State` | Model of the arithmetic of states (`source/State.cpp`, `source/State.hpp`) | 15 |
| `Model/Stationary` | Model of the stationary solver of the initial condition | 15 |
| `Model/Text` | Model of the text utilities | 31 |
| `Model/Time` | Model of the time integrators (`source/Time.cpp`, `source/Time.hpp`) and of the | 33 |
| `Model/Vtk` | Model of the VTK output | 25 |
| `Model/WaterModes` | The `WaveKin` and `Currents` options (`Waves::setup`, source/Waves.cpp:256-508) | 8 |
| `Model/WaveFFT` | Model of the construction of wave and current grids: `source/Waves/WaveGrid.cpp` | 21 |
| `Model/WaveNumber` | Model of `WaveNumber` (source/Waves.cpp) | 3 |
| `Model/Waves` | Model of `source/Waves.cpp` | 39 |
| `Model/Whole` | Model of the whole: bodies, rods, points and lines, and what they tell each other | 60 |
| `Model/WholeScheme` | Model of what the time schemes do to the states of all objects | 7 |
| `Model/Words` | The attachment words of bodies, points, rods, lines and failures | 24 |
| `Model/ZeroRod` | Model of zero-length rods, the clamps and joints of power cables | 10 |

## Code that is modelled

Lines of `/repo` cited by the definitions of the model (the header of each module and the comment
of each definition say what is simplified; ranges closer than four lines are joined).

| file | lines of the file | ranges |
|---|---|---|
| source/Body.cpp | 952 | 111-120, 130, 149-190, 227-244, 252-320, 324-632, 645-652, 657-783, 793-798, 873-952 |
| source/Body.hpp | 464 | 90-200, 261, 338, 356 |
| source/IO.cpp | 661 | 43-48, 62-102, 115-147, 177-209, 213-369, 382-467, 478-523, 534-615, 638-657 |
| source/Line.cpp | 1866 | 62-221, 225-226, 258-262, 268-338, 344-398, 403-536, 540-571, 613-1264, 1283-1364, 1371-1545, 1560-1565, 1649-1658, 1673-1847 |
| source/Line.hpp | 911 | 120-300, 375-382, 388-391, 401-410, 417, 425, 433, 441-508, 519-535, 545-655, 667-676, 686-706, 770-774 |
| source/Log.cpp | 152 | 54-83, 91-110, 117-133 |
| source/Log.hpp | 255 | 120-140, 157-158, 219-225 |
| source/Misc.cpp | 371 | 41-144, 149-168, 172-359 |
| source/Misc.hpp | 1231 | 161-270, 277-316, 320-377, 384-415, 421-443, 449-471, 513-530, 555-570, 574-602, 608-643, 700-706, 788-797, 805-817, 828-838, 863-867, 900-936, 940-963, 997, 1013-1032, 1040, 1047-1079, 1085-1126, 1165-1197, 1219-1231 |
| source/MoorDyn.cpp | 283 | 76-78, 234-243 |
| source/MoorDyn2.cpp | 2800 | 70-100, 104-110, 128-146, 188-1584, 1616-1619, 1632-1633, 1664-1667, 1685-1690, 1695-1943, 1949-2190, 2204-2317, 2330-2390, 2400-2424, 2451-2517, 2528-2629, 2681-2702 |
| source/MoorDyn2.hpp | 837 | 144-154, 178-194, 328-339, 350-361, 371-385, 486-532, 560-625, 644-678, 691-750, 765-796, 804-819 |
| source/Point.cpp | 594 | 57-475, 490-495, 558-574 |
| source/Point.hpp | 438 | 80-101, 120-200, 279, 318, 431-434 |
| source/QSlines.hpp | 597 | 84-597 |
| source/Rod.cpp | 1687 | 80-141, 148-153, 184-231, 245-270, 276-295, 322-325, 330-686, 742-772, 823-1358, 1383-1408, 1413-1567, 1582-1587, 1614-1621, 1642-1667 |
| source/Rod.hpp | 635 | 88-260, 362-395, 422-427, 490, 536, 562-565, 620-630 |
| source/Seafloor.cpp | 174 | 17-141 |
| source/State.cpp | 933 | 83-211, 259-596, 622-931 |
| source/State.hpp | 439 | 256-440 |
| source/Time.cpp | 890 | 39-150, 160-170, 176-223, 231-283, 298-325, 336-346, 354-369, 377-393, 401-431, 453-490, 498-499, 503-511, 531-632, 646-669, 684-707, 722-757, 770-888 |
| source/Time.hpp | 1559 | 66-97, 232-238, 254, 280-300, 330-352, 361-375, 532-562, 586-589, 598-663, 672-719, 749-753, 758-843, 920-945, 1082-1089, 1098-1106, 1110, 1115-1152, 1286-1290, 1331-1385 |
| source/Util/CFL.hpp | 270 | 84, 127, 133, 140, 170-177, 194-268 |
| source/Util/Interp.hpp | 300 | 17-51, 65-70, 95-113, 121-132, 143-163, 176-208, 223-295 |
| source/Util/VTK_Util.cpp | 20 | 5-18 |
| source/Util/VTK_Util.hpp | 65 | 48-65 |
| source/Waves.cpp | 976 | 68-101, 123-183, 203-245, 256-508, 520-558, 596-880, 919-976 |
| source/Waves.hpp | 698 | 570-575, 584-594 |
| source/Waves/SpectrumKin.cpp | 141 | 15-138 |
| source/Waves/WaveGrid.cpp | 890 | 20-58, 69-77, 102-113, 119-122, 147-266, 293-407, 414-539, 548-616, 623-731, 740-844 |
| source/Waves/WaveOptions.hpp | 159 | 9-62, 91-97 |
| source/Waves/WaveSpectrum.cpp | 162 | 32-128 |
| source/kiss_fft.cpp | 449 | 15-326, 332-360, 369-426 |
| source/kiss_fftr.cpp | 163 | 55-61, 65-163 |

## Code that is not modelled

* Floating point rounding (except of times in the loop of a call, C114, and of numbers packed into a
  saved state, C03), infinities and NaN propagation (except as said above), the speed of
  convergence of anything.
* Eigen; the C and C++ standard library beyond the functions used; the file system, terminals, threads,
  memory allocation and object lifetimes (except where a property speaks about leaks or dangling
  pointers).
* VTK itself (its containers, rotation and files are modelled from its documentation, C115) and the C++
  interface of MATLAB (C116). Of the Fortran module: the termination of strings. Of the Python wrapper: the plain getters beyond the table of what they reach, the
  failure of `malloc`, and the text of the messages.
* `source/Waves/WaveSpectrum.cpp` and `.hpp` other than the reading, resampling and sorting of a spectrum
  (the Pierson-Moskowitz spectrum is not used by the library).
* `source/Util/CFL.hpp` beyond the time step and the tree of objects.
* `source/Line.cpp`: the set-up of files and buffers.
* `source/Rod.cpp`: `getFnet` beyond what the load theorems use, set-up of files.
* `source/MoorDyn2.cpp`: the copying of settings into objects other than those with a definition in
  `Model/Reader`, `Model/IC`, `Model/Layout`, `Model/CFL`, the messages written to the log, and the
  banner of the program.
* `source/Time.hpp`, `source/Time.cpp`: the loops that copy the derivatives of the objects into the
  state vector (`CalcStateDeriv`) are one function of the model, and object by object in `Model/Whole` and
  `Model/Gear`; the operations on states are those of
  `Model/State`, and C98 relates them to the vector space of `Model/Time`.
* `source/State.cpp`: the texts written by `AsString`.
* The dispersion of the wave number iteration: only the equation its result solves up to the
  tolerance is used (C61).

## Properties

| id | property | status | theorems in |
|---|---|---|---|
| C01 | Save/Load file round trip | proved | Props/IO |
| C02 | Load rejects every malformed file | partial | Props/IO |
| C03 | Every finite double survives the portable packing | partial | Props/IO |
| C04 | Object snapshots are self-delimiting and lossless | proved | Props/IO |
| C05 | A restored system answers like the saved one | partial | Props/IO |
| C06 | MoorDyn_Step integrates exactly the requested interval | proved | Props/Time |
| C07 | Every time scheme advances the simulation time by its step | partial | Props/Time |
| C08 | Steady velocity is integrated exactly | partial | Props/Schemes |
| C09 | Schemes have the order their name announces | partial | Props/Schemes |
| C10 | Equilibrium is preserved | partial | Props/Schemes, Props/Stationary |
| C11 | Local time stepping never uses a derivative older than allowed | partial | Props/Motion, Props/Scheme |
| C12 | Number of coupled degrees of freedom matches the data consumed | partial | Props/Layout |
| C13 | Coupled layout: inputs and forces of one object live at the same offset | proved | Props/Layout |
| C14 | Coupled points follow the imposed motion | partial | Props/Motion |
| C15 | Paid-out line length is the integral of the requested rate | proved | Props/Motion |
| C16 | Line ends stay attached to exactly one support | proved | Props/Attach |
| C17 | Time-triggered failures fire when their time is reached and only once | partial | Props/Attach |
| C18 | Registering and removing objects keeps every other object's state | partial | Props/Registry |
| C19 | A point released by a failure is simulated | partial | Props/Attach |
| C20 | CFL number and time step are inverse of each other and conservative | partial | Props/CFL |
| C21 | One-dimensional interpolation is exact, bounded and clamped | partial | Props/Interp |
| C22 | Seabed depth is an interpolation of the bathymetry file | partial | Props/Seafloor |
| C23 | Wave grid look-ups are in range and periodic in time | partial | Props/Waves |
| C24 | External wave kinematics reach the node they were asked for | proved | Props/Waves |
| C25 | Waves and current add up | partial | Props/Waves |
| C26 | Regular wave kinematics satisfy linear wave theory | partial | Props/Spectrum |
| C27 | Moving a mass matrix to another point conserves kinetic energy | proved | Props/Matrix |
| C28 | Euler angle rotations are proper rotations | proved | Props/Matrix |
| C29 | Internal line forces cancel | partial | Props/LineForces |
| C30 | Mooring lines never push | partial | Props/LineTension |
| C31 | Maximum tension reported bounds the end tensions | partial | Props/LineTension |
| C32 | Fluid drag and internal damping dissipate energy | partial | Props/Body, Props/LineLoads, Props/Pins, Props/Point, Props/Rod |
| C33 | Seabed friction is bounded and opposes motion; the seabed only pushes | partial | Props/LineLoads |
| C34 | Submergence of a segment is a fraction with the right limits | partial | Props/LineLoads |
| C35 | A submerged rod obeys Archimedes | proved | Props/Rod |
| C36 | Rod inertia does not depend on the discretisation | partial | Props/RodMass |
| C37 | Wetted length of a rod is shared among its nodes | partial | Props/RodWet |
| C38 | Rod input coordinates are honoured | partial | Props/RodStart |
| C39 | Catenary solver terminates and matches both ends | partial | Props/Catenary, Props/CatenaryEnds, Props/CatenaryShape |
| C40 | Points are in force balance with their lines | proved | Props/Point |
| C41 | Rigid bodies move and load their attachments as a rigid body | proved | Props/Body, Props/Pins |
| C42 | Orientation quaternions keep unit norm to first order | partial | Props/Rotation |
| C43 | Exceptions map to their documented error codes | partial | Props/Api |
| C44 | Handles are validated | partial | Props/Api |
| C45 | Legacy single-instance API life cycle | partial | Props/Api |
| C46 | Output rate | partial | Props/Output |
| C47 | Output rows match their header | partial | Props/Output |
| C48 | Tabulated property files are read back as given | partial | Props/Numbers, Props/Reader |
| C49 | Body definition: drag areas | partial | Props/Reader |
| C50 | State indices address disjoint, contiguous state blocks | partial | Props/Reader |
| C51 | Input sections are read without running off the file | partial | Props/Reader |
| C52 | Tokenisers lose nothing but separators | partial | Props/Text |
| C53 | Log routing | proved | Props/Log |
| C54 | 6x6 mass matrices are returned complete | partial | Props/Matrix |
| C55 | Time scheme names | partial | Props/Scheme |
| C56 | Tension arrays for FAST are laid out per line | partial | Props/Api, Props/LineTension |
| C57 | Initial condition generation leaves the model parameters untouched | partial | Props/IC |
| C58 | Wave frequency resampling covers the spectrum | proved | Props/WaveInput |
| C59 | Grid axes are the ones described | partial | Props/WaveInput |
| C60 | 4D current files: every row counts | partial | Props/WaveInput |
| C61 | The wave number solves the dispersion relation | proved | Props/Dispersion, Props/WaveInput |
| C62 | Euler angles and quaternions describe the same orientation | proved | Props/Rotation |
| C63 | The velocity of a fairlead on a coupled body is the rate of change of its position | partial | Props/Rotation |
| C64 | A line clamped to a rod transmits its end bending moment | partial | Props/LineForces |
| C65 | Stiffness queries of a line | partial | Props/LineLoads |
| C66 | A floating rod displaces its wetted volume | partial | Props/Rod, Props/RodFloat |
| C67 | Free objects obey Newton's second law | partial | Props/BodyNewton, Props/RodMass |
| C68 | A pinned rod gives its body no moment about the pin | partial | Props/BodyNewton |
| C69 | The reaction returned for a coupled body balances loads and inertia | partial | Props/BodyNewton, Props/Pins |
| C70 | Malformed entries of the input are reported | partial | Props/Reader |
| C71 | Dynamic relaxation stops when the tensions are steady | partial | Props/IC |
| C72 | Output words mean what the documentation says | partial | Props/Channel |
| C73 | The fast Fourier transform is the Fourier transform | proved | Props/FFT |
| C74 | The wave grid holds samples of a linear wave field | proved | Props/WaveFFT, Props/WaveMomentum |
| C75 | A wave elevation file is reproduced at the origin | partial | Props/WaveFFT |
| C76 | A wave spectrum file means the same waves in both modes | partial | Props/WaveFFT |
| C77 | Current profile files are interpolated in depth and time | partial | Props/CurrentFile |
| C78 | An object moving with the water feels only the inertia of the water it displaces | partial | Props/MovingWater |
| C79 | Options of the input file | partial | Props/Options |
| C80 | Files are written beside the input file and never over it | partial | Props/Options |
| C81 | The stationary solver ends at rest near the equilibrium | partial | Props/LineType, Props/Stationary |
| C82 | The columns of line and rod types mean what the documentation says | proved | Props/LineType, Props/RodType |
| C83 | Zero-length rods join and clamp cables | partial | Props/WholeJoint, Props/ZeroRod |
| C84 | Attachment words of bodies, points, rods and lines | partial | Props/Words |
| C85 | The righting moment of an inclined floating rod | partial | Props/RodFloat |
| C86 | The force on a submerged rod | proved | Props/RodFloat |
| C87 | The seabed carries rods | partial | Props/RodSeabed |
| C88 | The sea is the one that WaveKin and Currents ask for | partial | Props/WaterModes |
| C89 | More substeps bring an implicit scheme nearer to the implicit solution, for small time steps | partial | Props/Relax |
| C90 | After a step the positions and the forces that can be asked belong to the returned time | partial | Props/Seen |
| C91 | The highest mode of the segments of a line is the one of the manual | partial | Props/Modes |
| C92 | The time step chosen from the natural period keeps the segments of a line stable | partial | Props/Stability |
| C93 | Internal pressure loads the bends of a line and tables give bending moments | proved | Props/LinePressure |
| C94 | The inertia of coupled objects follows the imposed motion | partial | Props/Pins |
| C95 | The Python functions reach what they announce and release what they take | partial | Props/Python |
| C96 | The Fortran, Rust and MATLAB functions hand over what the C functions expect | partial | Props/Foreign |
| C97 | The files that describe the sea are read as documented | partial | Props/SeaFiles |
| C98 | The states of all the objects are one vector | partial | Props/State |
| C99 | The horizontal axes can be chosen freely | partial | Props/Frame, Props/FrameMotion, Props/FrameRigid, Props/WholeGear, Props/WholeView |
| C100 | It does not matter which end of a line is called A | partial | Props/Relabel, Props/Reverse |
| C101 | The order of the objects in the input does not matter | partial | Props/GearPart, Props/Relabel, Props/WholeOrder, Props/WholeSeparate |
| C102 | In still water a mooring system does not gain energy | partial | Props/Energy, Props/EnergyBody, Props/EnergyPoints |
| C103 | The elastic forces of a line give back the work put into them | partial | Props/Elastic |
| C104 | What is given back for the points balances the loads and the inertia of the whole system | proved | Props/Balance |
| C105 | A symmetric mooring stays symmetric | proved | Props/Symmetry |
| C106 | Moorings that are not connected do not influence each other | partial | Props/GearPart, Props/Separate, Props/WholeSeparate |
| C107 | Towing through the water is the same as lying in the opposite current | partial | Props/Towing, Props/TowingRigid |
| C108 | The results do not depend on the system of units | partial | Props/Units, Props/UnitsRigid, Props/WholeView |
| C109 | A simulation continued from a saved state goes on as if it had not been interrupted | partial | Props/Restart, Props/WholeRestart |
| C110 | What is connected stays connected | proved | Props/Connected, Props/Fixed |
| C111 | The forces that can be read are all those of one moment | partial | Props/WholeForces |
| C112 | After a call everything is where it should be | proved | Props/WholePlaces |
| C113 | No force is lost or counted twice in systems with bodies and rods | partial | Props/WholeBudget |
| C114 | Time is kept in floating point numbers to one rounding per internal step | partial | Props/Rounded |
| C115 | VTK files show the system as it is | partial | Props/Vtk |
| C116 | The MATLAB functions do what the functions of the library they are named after do | partial | Props/Matlab |
| C117 | A symmetric platform with its mooring stays symmetric | partial | Props/WholeSymmetry |
| C118 | The axes in which a round body is described do not matter | partial | Props/WholeSymmetry |
| C119 | A ship in head seas does not sway, roll or yaw | partial | Props/WholeMirror |
| C120 | Null arrays are refused, and not needed without coupled objects | partial | Props/Pointers |
| C121 | Rows of the section of failures mean what the documentation says | partial | Props/Failures |
| C122 | Rows of the list of points mean what the documentation says | partial | Props/PointRow |
| C123 | Rows of the list of lines mean what the documentation says | partial | Props/LineRow |
| C124 | Rows of the list of rods mean what the documentation says | partial | Props/Reader, Props/RodRow, Props/Words |
| C125 | Rows of the list of bodies mean what the documentation says | partial | Props/BodyRow, Props/Reader |

## What the code does otherwise

Where the code does not do what the property says the negation is proved, with a concrete witness or
for a whole class of inputs, and the part that does hold is proved beside it. The list, made from the
comments of the theorems:

* `C03_all_finite_false` – C03 as stated (every finite double) is false.
* `C05_as_stated_false` – C05 as stated is false: set the length of a 64 m line to 128 m, save, load it in a line freshly created from the same input file: the query answers 64 m.
* `C07_wilson_false` – Hence C07 fails for `wilsonN` (`θ = 1.37`): the clock runs 1.74 times too fast, in every nonzero step and for every model.
* `C08_as_stated_false` – C08 as stated (from any initial state) is false: Heun's scheme, unit rate, one step of length 1.
* `C08_anderson_early_stop_false` – Anderson's scheme tests its convergence on the accelerations only (source/Time.hpp:1286-1290, 1352-1390): a point drifting at constant velocity, with zero stored derivative, has residual 0 at the first iteration, stops, and keeps the relaxed velocity `(1 - 0.9/2)`.
* `C08_rigid_ab_false` – Rods and bodies with the Adams-Bashforth schemes: the difference of their states is a sum (source/State.cpp:113-121), so that at a constant rate every step but the first goes too far: in the second step twice as far as the rate says, later `11/3` times (`ab2`), `20/3` times (`ab3`) and `551/45` times (`ab4`).
* `C10_rigid_newmark_false` – Rods and bodies in equilibrium do not stay there with `acaN`: the increment of orientation, zero angles, is converted to the identity quaternion (`q1 ≠ 0`, real part 1) and added to the rate: in one step the position is right but `h • q1` is added to the quaternion, for every number of iterations.
* `C10_stationary_rigid_false` – **C10** fails for rods and bodies with the stationary solver: without any acceleration one step leaves the place, and adds a multiple `h` of the identity quaternion to the orientation (`conv 0`: the quaternion of zero angles).
* `C10_stationary_turns_false` – **C10**: adding a positive multiple of the identity quaternion (which is what the stationary solver does at every step to rods and bodies without acceleration, see `C10_stationary_rigid_false`) turns every body that is not aligned with the axes.
* `C11_lab_false` – **C11** is false for the local Adams-Bashforth schemes: `LAB2`, `LAB3` and `LAB4` are the ordinary ones, which compute every derivative at every step.
* `C12_pinned_false` – C12 is false as stated: one pinned body has `MoorDyn_NCoupledDOF = 6` but 3 entries are read.
* `C14_wilson_overshoots_false` – C14 is false for Wilson's scheme: with `wilson1` (`θ = 1.37`), `x = 0`, `xd = 1` and a step of 1 the point is observed at 1.37, beyond the end of the step.
* `C17_as_stated_false` – C17 as stated is false: a failure set for time 100 is triggered at the end of a step ending at time 1, and one set for time 1/2 is not.
* `C18_remove_wrong_false` – C18 is false: removing the second of two points in a single-stage scheme drops the state of the first one.
* `C18_remove_undefined_false` – C18 is false: with more stages than objects of the kind, removing one is an access out of range (five derivatives in RK4-like schemes, one point).
* `C19_new_point_not_simulated_false` – C19 is false in every model, for every failure, successful or not: the point created has number `np` and is neither registered in the integrator nor in the wave kinematics (where only existing points were registered).
* `C20_cfl_ignored_false` – C20 as stated is false: with a requested time step of 1 s and CFL number 1/2, and a line with a natural period of 1 s, the time step is 1 s (CFL number 1).
* `C21_vector_one_datum_false` – The vector version with one datum leaves all values but the first unchanged, so it is not the interpolant: false beyond the first point.
* `C21_vector_unsorted_false` – With decreasing evaluation points the vector version does not interpolate (as its documentation says): after evaluating at 3, the value at 0 is the one at 2.
* `C22_incomplete_false` – C22 is false for incomplete files, which are accepted: a missing grid point has depth 0, the seabed is at the surface, above the reported minimum depth, and the average counts it as 0.
* `C22_repeated_false` – C22 is false for repeated rows: the average counts both.
* `C23_continuity_false` – **C23, continuity in time is false.** In the example the elevation tends to 10 when the time approaches the last sample of the record, and is 0 there: it jumps by as much as wanted close to 10 in as short a time as wanted.
* `C25_external_query_false` – **C25, the point query ignores external waves.** With external kinematics the query of the kinematics at a point answers the current alone, whatever was passed.
* `C25_unified_stretched_false` – **C25, merged currents are stretched: false as stated.** A steady current that grows linearly from the bed (`z + 100`), waves of velocity zero and the surface raised by 100 m: at mid depth the merged grid gives 50 instead of the sum 0 + 100.
* `C26_negative_deep_false` – **C26, large negative wave numbers: false.** For such a component the vertical velocity at the surface is the opposite of the time derivative of the elevation.
* `C26_stretching_false` – **C26, false as stated because of the stretching.** For every progressive wave in water of finite depth, at the instants at which the surface crosses the mean level at a place, the vertical acceleration returned for any point of the column there is zero, while the time derivative of the vertical velocity returned for it is not.
* `C29_internal_pressure_false` – C29 fails with internal pressure: a bent line in vacuum, without weight, closed on itself or not, is pushed by its own internal pressure.
* `C30_output_channel_false` – The tension channels of the output files are not the tension of the end segments: they include the weight (and drag, bending and seabed forces) lumped at the end node. Here the line is slack, but the output file says its fairlead has a tension.
* `C31_fairlead_false` – C31 fails for the fairlead: `MoorDyn_GetLineMaxTen` can be less than `MoorDyn_GetLineFairTen`.
* `C32_mirrored_table_false` – C32 fails for tables without negative rates: when the segment shortens the damping pulls its ends together, giving them energy.
* `C32_table_at_rest_false` – With tabulated damping a line with a segment of constant length has no defined net force at the nodes of that segment (the quotient is not a number): a line at rest stops the simulation.
* `C33_kinetic_limit_false` – C33 fails for the kinetic limit when the static to dynamic ratio is over one: a sliding node has a friction over the kinetic limit.
* `C33_suction_false` – C33 fails for the normal force of a node leaving the seabed: the seabed pulls it down.
* `C34_end_at_surface_false` – C34 fails with an end exactly at the surface: a vertical segment out of the water whose first end touches the surface is taken as completely submerged, as dry if the ends are swapped.
* `C34_slope_false` – C34 fails on the slope of a wave: a segment whose ends are both below the surface where they are is not taken as submerged if the upper one is above the mean of the elevations.
* `C36_overflow_false` – C36 fails from 26755 segments on: `6 * N * N` is computed in an `unsigned int`, and the inertia added to the nodal masses is not the one that compensates for the discretisation.
* `C37_upside_down_false` – C37 fails upside down: with end B under the surface and end A above it every node is taken as fully submerged, whatever the part of the rod that is.
* `C37_touching_false` – C37 fails when end B is exactly at the surface: the rod, all of it submerged, is taken as dry.
* `C37_fraction_false` – C37 fails for thin nearly vertical rods: the area of the cut section is set to half a square metre (source/Rod.cpp:1011), so the submerged fraction of the node at the waterline has no bound.
* `C37_sub_channel_false` – The `Sub` output channel is the mean over the nodes, end nodes counted as much as the others: for a vertical rod of two segments with a quarter of its length under water it says a third.
* `C38_start_false` – C38 fails for every other rod: the end B it is given at initialisation (and which is passed to the lines attached there) is not that of the input file.
* `C39_ends_false` – A successful answer whose last node is more than twice as far as the fairlead: the solver takes its initial guess as the solution.
* `C42_zero_length_rod_false` – **C42 does not hold for zero-length free rods**: the rate given is the identity quaternion, not a null rate, whatever the angular velocity, so that the norm of the state grows.
* `C43_guarded_false` – What the property claims for guarded functions is false for one kind of the library's own exceptions: the one for features not implemented passes through.
* `C43_create_false` – An exception that is not the library's own (a malformed number given to `WaveKin`, an impossible number of segments) leaves `MoorDyn_Create` instead of giving a null handle.
* `C43_log_file_false` – Setting a log file that cannot be opened: the exception leaves the C function.
* `C44_zero_segments_false` – It fails for lines declared with zero segments, which the input file accepts: the tension of their only node is read outside the (empty) arrays.
* `C44_legacy_fairten_false` – In particular line 0 of any system.
* `C45_at_most_one_false` – "At most one instance is alive" is false: a failed initialisation leaves its instance alive.
* `C46_start_false` – The row for the initial time, a multiple of every output interval, is never written when there is an output interval.
* `C46_null_interval_false` – C46: the documentation has a null interval stand for the internal time step `dtM` (docs/inputs.rst:591-592). It does not: a call over two or more internal steps writes one row only.
* `C47_line_flags_false` – Flags that ask for columns of a line but make no file: the curvatures and the seabed forces, asked for alone, are silently lost.
* `C47_rod_flags_false` – The flag of the net forces of a rod, alone, makes no file; and documented flags of rods (water velocity, drag, tension, damping, strain and its rate) make a file with only the time.
* `C47_body_false` – The files of coupled and fixed bodies have no titles.
* `C48_ordinates_false` – The ordinates are not those of the file: whatever the file, they are the abscissas.
* `C48_newline_false` – Text files whose last line is ended, as text editors write them, are never accepted: the empty rest after the last end of line counts as a malformed row.
* `C48_file_name_false` – But names of files beginning with a digit, or with `inf` or `nan`, are numbers as well: the file is not read, whatever it has.
* `C49_surge_false` – The drag area in the first direction is lost: for three and six values the result is wrong unless the first one is zero.
* `C50_zero_segments_false` – Lines with no segments, which are accepted, take states from the objects before.
* `C50_failure_false` – The block of a point created by a failure is not within the states: it begins at their end, leaving a hole of six.
* `C51_options_false` – Files that end within the options, without a closing line of dashes, are read beyond their end: for every file with options not closed and no `writeLog` among them, whatever the other sections, before any of them is read.
* `C51_header_false` – Files that end within the titles of a section are read beyond their end, too.
* `C52_tabs_false` – The tokeniser of the sections of the input file (separator: the space) does not split at tabs, so that its tokens are not the words between blanks.
* `C52_mixed_false` – The tokeniser of the bathymetry files splits at tabs too, but only if there is a single word between spaces: a line mixing both keeps tabs in its tokens.
* `C54_false` – **C54 does not hold**: the call succeeds but the lower half of the matrix is not written. Witness: an identity mass matrix read into a zeroed array.
* `C55_garbage_false` – "Unknown names are rejected" is false: a documented name with iterations may be followed by anything that does not begin with a digit.
* `C55_negative_false` – Negative numbers of iterations are accepted, as huge ones.
* `C55_escapes_false` – A number of iterations beyond the range of `int` is not reported: an exception leaves the library.
* `C55_time_false` – "Keeps the simulation time" is false: the clock restarts from zero whatever it was.
* `C55_queries_false` – Until the next step the queries give the initial states of the objects computed anew, not the state of the simulation.
* `C55_flow_false` – With waves or currents the first step after a switch is undefined behaviour: they hold the address of the deleted integrator.
* `C55_init_false` – A switch while the objects cannot be initialised (a free point has sunk into the seabed) lets an exception out, after the old integrator is gone.
* `C56_vertical_false` – C56, the vertical values are not the vertical forces: for every line with mass, under gravity, the one at the fairlead is less than the force there.
* `C57_failure_false` – "Whatever its outcome" is false: if a step of the dynamic relaxation fails, the drag coefficients stay scaled by the factor, and the wave mode is not set.
* `C57_zero_factor_false` – With the factor zero the drag coefficients are lost (not a number), whenever the relaxation ends without an error.
* `C57_depth_false` – If the waves cannot be set up, the depth of the water is left at the average of the bathymetry.
* `C57_interval_false` – The interval of the option is a hundredth of itself after a dynamic relaxation, so that another call of `MoorDyn_Init` uses a different one.
* `C59_one_false` – **C59, false for one coordinate:** two are created.
* `C59_zero_false` – **C59, false for no coordinates:** 2^32 are created.
* `C60_first_row_ignored_false` – **C60, the first row is ignored: false for every file.** In any accepted file in which each grid point is given once, the current at the coordinates of the first row is zero, whatever the row says.
* `C60_unknown_coordinates_false` – A row whose coordinates are not ticks is accepted and overwrites the first grid point.
* `C63_false` – **C63 does not hold**: the rates of the three angles are taken as angular velocity. Witness: a body pitched 90 degrees and yawing; its fairlead at (0,1,0) moves along z, but is given a velocity along x.
* `C64_clamped_false` – C64 fails for clamped ends: the bending forces of the line have a resultant moment, whose reaction is not passed to the objects at the ends of the line.
* `C65_query_false` – C65 fails for the query of the kind of stiffness: for every line it answers the opposite.
* `C66_dipped_false` – C66 fails when less than half a segment is wet: the buoyancy is short of the displaced water.
* `C67_free_rod_false` – C67 fails for every rod which turns about anything but its own axis: the centripetal term is missing (end A is taken as the origin of an inertial frame).
* `C67_body_added_mass_false` – C67 fails with added mass and the centre of gravity off the reference point, for a body turning: the code gives the added mass, which it places at the reference point, the centripetal acceleration of the centre of gravity.
* `C67_body_moment_false` – C67, moments, fails: the body without any force on it keeps its angular velocity although its angular momentum then turns with the body.
* `C68_pin_moment_false` – C68 fails: a rod pinned to a body at its reference point, inclined under its own weight, gives the body a moment, as if it were clamped.
* `C69_coupled_moment_false` – C69, moments, fails for a coupled body which rotates: the moment of the centripetal force is missing.
* `C70_false` – A rod entry with too few fields (an empty line, for instance) is not rejected but undefined behaviour; so is a failure entry without its last field.
* `C71_unchecked_false` – Convergence is reported without any check if the maximum time is not more than nine intervals, whatever the tensions do.
* `C71_window_false` – The documentation promises tensions steady over `dtIC`; the comparison covers nine hundredths of it. A line whose tension grows steadily by one percent in every `dtIC` (here 1 s) counts as converged to 0.001 after a tenth of `dtIC`.
* `C72_object_false` – A well formed word for an object that does not exist is not refused: reading it or its value is undefined behaviour, whatever the system.
* `C72_node_false` – A node beyond the end of a line: the position is undefined behaviour (other quantities give an exception when the file is written).
* `C72_blank_false` – Blank cells of the table are not refused either: the rotation of a line or the moment on a point is a column of zeros, on a point even without a warning.
* `C72_titles_false` – The title of a column need not tell what it is: `R1TEN` and `R2TEN` have the same one.
* `C72_letters_false` – The letters before the number of a node are not looked at.
* `C75_cut_false` – **C75, content above half a hertz: false.** A record which alternates between 1 and -1 every quarter of a second, with `dtWave` a quarter of a second, gives still water.
* `C75_short_false` – **C75, short records: false.** A record which ends before `dtWave` has one sample, which is dropped; the transform of no points is then asked for.
* `C76_phase_false` – **C76, the two methods for the same spectrum file: false.** A spectrum of one wave of amplitude one: at the origin and time zero the grid has the crest of the wave, while the component method, for the same file, has the still water level.
* `C77_descending_false` – **C77, profiles given from the surface down: false.** The depths are not sorted: for a current which is one at the surface and zero ten below, the answer at ten below, and everywhere, is the current at the surface.
* `C77_uneven_false` – **C77, files whose times are not evenly spaced: false.** With the times 0, 1 and 2.5 and the currents 0, 0 and 3 the samples are at 0, 1 and 2, and from 2 on the answer is that of the beginning of the file: at 2.25 and at 2.5 it is zero, instead of 2.5 and 3.
* `C77_after_end_false` – **C77, times after the last one: false.** The documentation says that the nearest value is used; the profiles are repeated instead: ten seconds after the end of a file of 20 seconds the answer is neither the last value nor between the last values.
* `C77_one_time_false` – **C77, one time only: false.** The construction reads outside of the tables.
* `C78_point_false` – C78 fails for points (the code has a remark that it is still to be done, source/Point.cpp:367): the acceleration of the water never enters. A neutrally buoyant free point at rest with the water stays at rest whatever the acceleration of the water, so it does not follow it: no acceleration but zero solves the equation of motion.
* `C78_body_false` – C78 fails for bodies: a neutrally buoyant free body moving steadily with the water satisfies the equation of motion with zero acceleration, whatever the acceleration `e.Ud` of the water.
* `C79_default_false` – **C79** fails for the gravity: its default is 9.80665 and not the documented 9.81 (also the default of the time step is the greatest double, the documented one is the greatest float).
* `C79_garbage_false` – Values that are not numbers are not rejected: gravity "abc" reads as zero.
* `C79_depth_false` – **C79** fails for the water depth: with a depth of 100 and a point (of any type) at the height -150 the depth used is 150.
* `C80_input_false` – **C80** fails for an input file with the extension `.out`: the main file of results takes its place.
* `C80_shared_false` – **C80** fails for input files that differ in the extension only: they share the files written.
* `C81_stagnation_false` – **C81** fails when the residual stagnates: a point with a constant acceleration ends the solver after two intervals of the 120 s allowed, with the residual it began with.
* `C81_rotation_false` – **C81** fails for moments: a body with an angular acceleration but no linear one counts as converged, after the first interval, whatever the angular acceleration.
* `C81_relative_length_false` – **C81** fails for lines whose length is given relative to the distance of their ends (a negative number in the input file): the step that such a line allows to the stationary solver is negative, the solver moves against the accelerations.
* `C83_joint_false` – **C83** fails for cables of different stiffness: the moment at the end of the first cable is not the one at the beginning of the second, the difference is lost.
* `C83_clamp_false` – **C83** fails for clamps: whatever the direction given for a zero-length rod, the line attached to it is clamped in the direction of its own segment, so that there is neither curvature nor moment at its end, as if it were attached to a point.
* `C83_table_false` – **C83** fails for tabulated bending stiffness: the axis is a division by zero as long as the curvature kept by the line is zero, as it is at the beginning (source/Line.cpp:202).
* `C84_body_misspelt_false` – Any other word, a misspelling for instance, gives a free body, and no error.
* `C84_rod_misspelt_false` – A rod with a word (or a type) that does not exist is not reported: reading is undefined behaviour (here, without lines).
* `C84_suffix_false` – Whatever follows the number is ignored for points, and fixes the rod if it is not one of the two words.
* `C84_ids_false` – Three points with the numbers 1, 3, 2 and a line between "1" and "3": it is attached to the point with the number 2; the numbers are neither used nor checked.
* `C85_righting_false` – **C85** is false: the moment exceeds that of the displaced water by nine tenths at least of what the second moment of area of the section contributes for small inclinations (segments no longer than the radius).
* `C87_suction_false` – **C87** is false: a rod that rises faster is held by the bottom.
* `C87_friction_false` – **C87** (friction): the friction parameters have no effect on rods.
* `C87_zero_length_false` – **C87**: rods of length zero get no load, at any depth.
* `C87_surface_false` – **C87** is false of the surface of the rod: half a metre above the bottom with the axis, a rod of 1 m of radius has its lower half metre in the ground, but no load.
* `C88_unimplemented_false` – **C88** is false of the values that the manual calls not implemented: waves 5 and 6 are still water, currents 3 and 4 are no current, without an error.
* `C88_ignored_false` – **C88** is false of values that are not implemented beside ones that are: the first are ignored, without an error.
* `C88_air_false` – **C88** is false above the water: the manual says that the velocity of time dependent currents is zero there, but the current of the surface goes on into the air.
* `C89_spring_false` – **C89** is false of large time steps, undamped: for an oscillation `y' = i ω y` with `(ω fac dt)² ≥ 19` no number of substeps gets nearer to the implicit solution than the initial guess of the derivative, times `ω fac dt > 4`.
* `C89_damper_false` – **C89** is false of large time steps, damped: `y' = - a y` with `a dt ≥ 19` integrated with `BEuler` from the exact derivative at the beginning. The solution decays, the implicit scheme divides by `1 + a dt`; the code multiplies by more than 300, however many substeps there are.
* `C89_aca_factor_false` – **C89** is false of `ACA`: with 24 or more substeps the relaxation factor of the first one is greater than one, so that the first substep goes away from the new derivative instead of towards it.
* `C90_consistent_false` – **C90** is false: after a step of the Euler scheme that moves anything, the forces shown do not belong to the positions shown, nor to their time.
* `C91_cfl_false` – **C91** is false of the factor CFL, documented (docs/inputs.rst:556-558) as the ratio of the time step and that natural period: the code uses the stiffness `EA N / L` instead of `4 EA N / L`, so a factor `cfl` gives the step `2 cfl` periods.
* `C92_default_false` – **C92** is false of the default options, CFL 0.5 and the scheme RK2: for every damping ratio up to the critical one, each step multiplies the amplitude of the documented mode by more than 200.
* `C94_first_false` – C94 fails in the first step: if `Init` is given the velocity at the start, as the first call of `Step` is, the acceleration is zero whatever the motion.
* `C94_pinned_rod_false` – C94 fails for rods pinned to bodies: the acceleration of the pin is never handed to the rod. In vacuum the law of angular momentum fails whenever the pin accelerates across the rod.
* `C95_instance_false` – 
* `C95_waves_false` – C95, false for the kinematics of the water: every call of `moordyn.GetWavesKin`, with any number of arguments, is a TypeError.
* `C95_names_false` – C95, false: `moordyn.IsLinePressBend` and `moordyn.UseBodyVTK` fail whenever they are called as announced; nothing is reached.
* `C95_other_false` – C95, false: the function that announces the reaction of the sea bed on a node of a line gives the Froude-Krylov force, and the one for the number of points of the external waves sets them up again.
* `C95_init_raises_false` – C95, false of the manual ("the functions trigger exceptions if errors are detected"): an initialisation that fails returns the error code like a success returns 0.
* `C95_ext_wave_n_false` – C95, false: `ExternalWaveKinGetN` returns 0 whenever it returns, whatever the number of points.
* `C95_refused_leak_false` – C95, false: each `step` refused for the length of its first sequence keeps a reference to it: after `k` of them `k` sequences are never released.
* `C95_failed_leak_false` – C95, false: each `step` that MoorDyn reports as failed keeps the block of its forces.
* `C95_item_leak_false` – C95, false: an item that is not a number makes `step` keep the block of the other sequence.
* `C95_none_false` – C95, false: the functions that return `None` give away a reference they never took: after `k` successful calls the interpreter is left with `k` references fewer.
* `C95_closed_false` – C95, false of safety: once a system is closed every further use of its handle, or of the handle of one of its objects, is undefined: nothing marks the handle.
* `C95_deserialize_false` – C95, false: handing anything but bytes to `Deserialize` gives no explanation, a SystemError.
* `C95_press_bend_false` – C95, false: `SetLinePressBend(line, False)` switches it off only when the memory under the flag happened to hold zeros; otherwise it switches it on.
* `C96_verbosity_false` – C96, false: `MD_SetVerbosity` is bound to a symbol no header declares: a program that calls it cannot be linked.
* `C96_reference_false` – C96, false: the level of the log and the switch of the pressure bending arrive as part of the address of the variable, whatever the variable holds.
* `C96_press_bend_false` – C96, false: so `MD_SetLinePressBend` switches the pressure bending on, also when asked to switch it off, unless the address is a multiple of 2 to the 32.
* `C96_stiffness_false` – C96, false: `MD_SetLineConstantEA` hands over no stiffness at all: the C function takes what happens to be in the register.
* `C96_waves_false` – C96, false: by the Microsoft rules each address after the time arrives one parameter late: the velocity is written at an address made of the time, and the sea floor is taken to be the place of the pressure.
* `C96_fast_false` – C96, false: `MD_GetFASTtens` fills arrays of double precision with single precision numbers: the tension of line `i` is made of those of the lines `2 i` and `2 i + 1`, and for the second half of the lines the arrays keep what they held.
* `C96_rust_waves_false` – C96, false: the declaration of `MoorDyn_GetWavesKin` for Rust has no sea floor: a call that fits it leaves that parameter of the C function, which it reads if it is not zero, to what happens to be there. Everything else arrives.
* `C96_matlab_short_false` – C96, false of safety: shorter arrays are not refused: the library reads past their end, in the step and in the initialisation, and nowhere else.
* `C97_place_false` – C97, false: for an input file given without a directory they are looked for in the root of the file system, and not beside it; the one of currents in space and time is found.
* `C97_direction_false` – C97, false: in a line with five words or more the direction is lost.
* `C97_empty_false` – C97, false: of an empty record the last time is asked for all the same, which is undefined.
* `C97_short_line_false` – C97, false: a line that lacks some of the components along the second axis is not refused: all of them are taken to be zero.
* `C97_grid_false` – C97, false: a grid of which the line with the kind of the first axis is blank, or the line of a uniform axis has fewer than three words, is not refused: reading it is undefined.
* `C97_many_false` – C97, false: a uniform axis of 2³² points and more is not refused: so many points are left out. From 2⁶⁴ on it is.
* `C97_first_line_false` – C97, false: the first line of data is not read: files that differ in nothing else give the same currents, whatever they say there.
* `C97_example_false` – C97, false: the example of the documentation is accepted but not read as it is written: a height written `-0` in a line and `0` in the axis counts as the lowest height, so that at time 15 the current at `(1, 2, 0)` is zero and the one at `(1, 2, -3)` is that of the surface.
* `C98_state_difference_false` – C98, false: of rods and bodies it is the sum: it is the difference of the states only if twice the second state vanishes.
* `C98_mix_sizes_false` – C98, false for mixing: nothing is compared, and of a shorter first state only what it has is mixed.
* `C99_rod_false` – Rods that lean very little: they are taken to lean towards x, whatever their direction is. Any such rod with mass is an example.
* `C99_anderson_false` – Anderson's scheme: the number of iterations depends on the axes, because the residues are measured by the absolute values of their components. The velocity after one step is half as large in one case.
* `C100_max_false` – C100 fails for the largest tension: `MoorDyn_GetLineMaxTen` leaves out the end B.
* `C100_surface_false` – C100 fails when an end of a segment is exactly at the surface: the segment is taken to be under the water if that end comes first, dry if it comes second.
* `C101_zero_rods_false` – C101 is false for rods without length with a line of one segment between them: the same objects, with the numbers of the two rods exchanged, told the same, are then not in the same state.
* `C102_body_false` – C102 fails for bodies with added mass that is not the same in all directions: a ball that drifts and spins in still water.
* `C102_rod_false` – C102 fails for rods: a rod in deep space which turns about its centre, which is at rest, moves off half a turn later. The centripetal acceleration is left out (C67).
* `C103_bending_false` – C103 is false for bending: bent while long, shortened, straightened while short and lengthened again, a line is back where it was, and its bending forces have given work. The curvature is computed with the stretched lengths of the segments, so that stretching a bent line changes its bending energy, but there is no force against that.
* `C106_anderson_false` – Anderson's scheme: how often it iterates depends on the mean of the residues of everything. A buoy alone gets half the velocity in one step that it gets when there is another one somewhere.
* `C106_step_false` – The internal time step is that of the whole: if a time step is chosen by stability, a stiffer line elsewhere shortens it.
* `C106_depth_false` – The depth of the water is that of the whole: a point elsewhere that is deeper than the bottom puts the bottom down for all.
* `C107_heun_false` – Heun's scheme: in its first step a buoy that moves with the water is left behind by half the way.
* `C108_short_false` – Very short segments: the direction is divided by the length only if the length is more than about 1e-14, in whatever units it is given, so the tension depends on the units.
* `C108_anderson_false` – Anderson's scheme: its tolerance is a number in the units of acceleration that does not change with the units (here 0.01), so that in other units, here millimetres, it may go on longer.
* `C108_rod_false` – C108: where a section of a rod reaches through the surface and the rod is nearly vertical, half a square metre is taken for the area under water (source/Rod.cpp:1009-1012), whatever the units: in units of half a metre the same rod is reported to be submerged by a quarter of what it is reported to be in metres.
* `C109_local_false` – C109: with the local Euler scheme a restarted simulation differs: how long ago each line was evaluated is not stored, so after loading all lines are evaluated at once (at `h`), where the uninterrupted simulation still uses the old forces (of time 0).
* `C111_anchor_false` – The force on a point that is fixed to the ground or to a fixed body is never computed, whatever its lines pull: the force that is read from an anchor is forever the zero it has at the start (source/Point.cpp:94).
* `C111_fixed_rod_false` – The force on a rod that is fixed to the ground or to a fixed body is never computed: what is read is what the memory held when the rod was made, and nobody has set it (source/Rod.hpp:168).
* `C111_fixed_body_false` – The force on a fixed body is never computed, whatever the lines at its points and rods pull.
* `C111_nodes_false` – After a step the inner nodes of a rod are where the forces were computed last, not between its ends: a rod of two segments that has been moved along its axis by half its length has its middle at its end A.
* `C111_water_false` – The water at the inner nodes of a rod is that of the places where they were when the forces were computed before: the second evaluation computes another force than that of the water where the rod is.
* `C113_clamped_moment_false` – What is missing in the moments: stiff as a line may be, and clamped to a rod, what it gives to the rod is a force without a moment, in every state (`endMomentA` and `endMomentB` are written nowhere but in the initialization).
* `C114_ten_tenths_false` – C114, a call of one second with internal steps of 0.1 s in `double`: eleven steps, not ten, and the last is 1.4e-16 s.
* `C115_line_sound_false` – **C115**: not so with it. For every line the array with the submerged parts has one tuple more than there are cells.
* `C115_shape_false` – **C115**: a file that is not there is reported as one that cannot be written; and with a name made of dots only, or of nothing, the behaviour is undefined.
* `C116_file_name_false` – C116, false: the eight functions that take the name of a file (`MoorDynM_Save`, `MoorDynM_Load`, ...) look for the name in the input that is the handle. Given a handle they end in an error, whatever the name, and the library is not called.
* `C116_no_way_false` – C116, false: nor is there another way to call them. Whatever the inputs, if the library is called then the first input are characters, and the handle is made of these.
* `C116_matrix_false` – C116, false: any other matrix is returned changed.
* `C120_motion_false` – C120 is false: a null pointer to the places or to the velocities of coupled objects is not reported to the caller by `MoorDyn_Init` nor, with a positive step, by `MoorDyn_Step`: it is followed.
* `C120_forces_false` – C120 is false: a null pointer to the forces is reported only after the step, which has been taken: the time and the system are those after it.
* `C120_time_false` – C120 is false: null pointers to the time and to the step are followed, with any system.
* `C121_tension_false` – C121 fails for the tension: the failures that are looked at after the steps are the same whatever the tension of the row.
* `C121_repeated_false` – C121 fails for repeated rows, which are not ignored: if both are due the second is an error, and the step returns one.
* `C121_unattached_false` – C121 fails for lines that are not attached to the point of the row: such a row is accepted, and the step in which it is due returns an error.
* `C122_remark_false` – C122 without the bound on the number of words is false: a remark of three words behind the columns of the manual changes the point.
* `C123_older_false` – C123 for the older format (number, type, length, segments, end A, end B, outputs): not even where both headings are those of the older format is a row read so.
* `C123_senseless_false` – C123: numbers of segments that are negative or nothing, and lengths that are no numbers, are accepted.
* `C124_segments_false` – C124: a number of segments that is negative is accepted.
* `C84_rod_misspelt_false` – A rod with a word (or a type) that does not exist is not reported: reading is undefined behaviour (here, without lines).
* `C70_false` – A rod entry with too few fields (an empty line, for instance) is not rejected but undefined behaviour; so is a failure entry without its last field.
* `C125_space_false` – C125: a space behind a bar, which the manual forbids, is no error if there are words enough: three numbers for the centre of gravity that are written so are taken for the centre, the inertia and the volume, and the others move along.
* `C49_surge_false` – The drag area in the first direction is lost: for three and six values the result is wrong unless the first one is zero.

