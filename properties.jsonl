{"id": "C01", "title": "Save/Load file round trip", "statement": "Whatever sequence of 64-bit words a system produces when it is saved, the file written by MoorDyn_Save is accepted by MoorDyn_Load of the same version and exactly the same words, in the same order and in the same number, are handed to the restoring code; the byte layout is the 7 bytes 'MoorDyn', major, minor, the word count and the words.", "quantifier": "every list of 64-bit words of length below 2^61 (every system, every state), every pair of version bytes accepted by the reader, both machine byte orders", "why_tests_cant": "the word list is arbitrary in content and length; a test only checks the systems it saves", "anchors": ["source/IO.cpp: IO::Save, IO::Load, swap_endian", "source/IO.cpp: IO::Serialize(const uint64_t&), IO::Deserialize(const uint64_t*, uint64_t&)"]}
{"id": "C02", "title": "Load rejects every malformed file", "statement": "MoorDyn_Load accepts a file only if it starts with the magic, has an acceptable version and its length field is exactly the number of 8-byte words that follow the header; any other file is reported as an error before anything is restored.", "quantifier": "every byte string", "why_tests_cant": "the set of malformed files is infinite and the dangerous ones (length field that wraps modulo 2^64) are never produced by the writer", "anchors": ["source/IO.cpp: IO::Load"]}
{"id": "C03", "title": "Every finite double survives the portable packing", "statement": "Packing a finite double into the 64-bit word written in save files and unpacking it returns the same number, and the word is the number's own IEEE-754 bit pattern.", "quantifier": "every finite double, positive or negative, normal or subnormal", "why_tests_cant": "2^64 inputs with several boundary families (zero, subnormals, largest binade, rounding in the significand product)", "anchors": ["source/IO.cpp: pack754, unpack754, IO::Serialize(const real&), IO::Deserialize(const uint64_t*, real&)"]}
{"id": "C04", "title": "Object snapshots are self-delimiting and lossless", "statement": "Restoring from the words an object wrote, followed by anything else, gives back every quantity that was written and leaves the reader exactly at the first word after them; therefore the snapshots of all objects can be concatenated and the whole system is restored by one pass whatever the number of bodies, rods, points, lines, nodes and integrator stages.", "quantifier": "every system: any number of bodies, rods, points, lines, any number of segments per line and rod, any number of integrator states and derivatives, any values that are zero or normal doubles (see C03), any trailing words", "why_tests_cant": "ordering/length mismatches between the writer and the reader of one object only show for some combination of sizes", "anchors": ["source/IO.cpp: IO::Serialize overloads, IO::Deserialize overloads", "source/MoorDyn2.cpp: MoorDyn::Serialize, MoorDyn::Deserialize", "source/Line.cpp: Line::Serialize, Line::Deserialize", "source/Rod.cpp: Rod::Serialize", "source/Point.cpp: Point::Serialize", "source/Body.cpp: Body::Serialize", "source/Time.hpp: TimeSchemeBase::Serialize"]}
{"id": "C05", "title": "A restored system answers like the saved one", "statement": "After MoorDyn_Load every getter of the API returns what it returned when the system was saved, in particular the unstretched length and its rate of change of every line.", "quantifier": "every history of API calls before the save and every system loading it", "why_tests_cant": "the quantities that are not in the file are only wrong for histories that changed them after creation", "anchors": ["source/Line.cpp: Line::Serialize, MoorDyn_GetLineUnstretchedLength", "source/Line.hpp: Line::setUnstretchedLength, setUnstretchedLengthVel"]}
{"id": "C06", "title": "MoorDyn_Step integrates exactly the requested interval", "statement": "A successful MoorDyn_Step with positive dt splits it in finitely many internal steps, all positive and none longer than the internal step limit, whose sum is exactly dt, and the extra clock for coupled motion ends at exactly dt; with dt <= 0 nothing is integrated.", "quantifier": "every dt, every positive internal time step, every model", "why_tests_cant": "number of substeps unbounded; termination is a liveness claim", "anchors": ["source/MoorDyn2.cpp: MoorDyn::Step", "source/Time.hpp: TimeScheme::Next, TimeScheme::Step"]}
{"id": "C07", "title": "Every time scheme advances the simulation time by its step", "statement": "One internal step of length h with any selectable time scheme advances the simulation time (the t returned by MoorDyn_Step and stamped on outputs) by exactly h.", "quantifier": "every scheme name accepted by MoorDyn_SetTimeScheme / tScheme, every number of implicit iterations, every h, every state", "why_tests_cant": "scheme x parameter x state space; drift is invisible in short runs", "anchors": ["source/Time.cpp: EulerScheme::Step, HeunScheme::Step, RK2Scheme::Step, RK4Scheme::Step, ABScheme::Step, ImplicitEulerScheme::Step, AndersonEulerScheme::Step, ImplicitNewmarkScheme::Step, ImplicitWilsonScheme::Step, StationaryScheme::Step"]}
{"id": "C08", "title": "Steady velocity is integrated exactly", "statement": "If the rate of change of the state is the same constant at every time and state, each scheme moves the state by exactly rate times elapsed time.", "quantifier": "every scheme, every constant rate, every number of steps and step sizes, every initial state", "why_tests_cant": "unbounded histories (multistep schemes depend on all previous steps)", "anchors": ["source/Time.cpp: *Scheme::Step", "source/Time.hpp: ABScheme::shift"]}
{"id": "C09", "title": "Schemes have the order their name announces", "statement": "RK2 and RK4 reproduce exactly the solutions that a second (fourth) order method must: forcing polynomial in time of degree 1 (3) and, for linear systems y' = k y, the Taylor polynomial of the exponential of degree 2 (4); the multistep schemes of order p reproduce forcing of degree p-1 after start-up; Heun reproduces forcing of degree 1.", "quantifier": "every polynomial forcing, every k, every step size, every initial state, every number of steps", "why_tests_cant": "order is an asymptotic claim over all right-hand sides", "anchors": ["source/Time.cpp: RK2Scheme::Step, RK4Scheme::Step, HeunScheme::Step, ABScheme::Step", "source/Time.hpp: ABScheme::shift"]}
{"id": "C10", "title": "Equilibrium is preserved", "statement": "A system whose state has zero velocity and zero acceleration is left where it is by every time scheme, implicit or explicit, and by the stationary solver used to find the initial condition.", "quantifier": "every scheme, every number of implicit iterations, every equilibrium state, every time step", "why_tests_cant": "infinitely many states; drift per step is tiny", "anchors": ["source/Time.cpp: *Scheme::Step", "source/State.cpp: StateVarDeriv::MakeStationary, Newmark, Wilson, Mix", "source/Misc.hpp: XYZQuat"]}
{"id": "C11", "title": "Local time stepping never uses a derivative older than allowed", "statement": "With a local-time-step scheme the derivative used for a line at any internal step was computed no longer ago than the time step that the CFL factor allows for that line, and points, rods and bodies are evaluated at every internal step; selecting lab2/lab3/lab4 selects a local scheme.", "quantifier": "every sequence of internal steps, every line time step", "why_tests_cant": "depends on the whole history of steps", "anchors": ["source/Time.cpp: LocalTimeSchemeBase::SetCalcMask, ComputeDt, create_time_scheme"]}
{"id": "C12", "title": "Number of coupled degrees of freedom matches the data consumed", "statement": "MoorDyn_NCoupledDOF is exactly the number of entries of x and xd that MoorDyn_Init and MoorDyn_Step read and the number of entries of f that they write.", "quantifier": "every collection of coupled bodies, rods and points of every type", "why_tests_cant": "all combinations of coupled kinds; over-reads are silent", "anchors": ["source/MoorDyn2.hpp: MoorDyn::NCoupledDOF, GetForces", "source/MoorDyn2.cpp: MoorDyn::Init, MoorDyn::Step"]}
{"id": "C13", "title": "Coupled layout: inputs and forces of one object live at the same offset", "statement": "Each coupled object reads its position and velocity at the offset where its reaction is written in f; the blocks of different objects are disjoint, consecutive, ordered bodies, rods, points, and cover a prefix of the arrays.", "quantifier": "every collection of coupled objects, every object index", "why_tests_cant": "all combinations of kinds and orders", "anchors": ["source/MoorDyn2.cpp: MoorDyn::Init, MoorDyn::Step", "source/MoorDyn2.hpp: MoorDyn::GetForces"]}
{"id": "C14", "title": "Coupled points follow the imposed motion", "statement": "At every internal instant of MoorDyn_Step(x, xd, dt) a coupled point is at x + xd*tau with velocity xd, where tau in [0, dt] is the time elapsed since the beginning of the call, and at the end of the call it is exactly at x + xd*dt, whatever scheme and number of internal steps.", "quantifier": "every x, xd, dt, internal step size, scheme stage", "why_tests_cant": "all stage times of all schemes", "anchors": ["source/Point.cpp: Point::initiateStep, updateFairlead", "source/Time.cpp: TimeSchemeBase::Update", "source/Time.hpp: TimeScheme::Next"]}
{"id": "C15", "title": "Paid-out line length is the integral of the requested rate", "statement": "If MoorDyn_SetLineUnstretchedLengthVel sets a constant rate u, after any sequence of MoorDyn_Step calls with durations dt1..dtn the unstretched length is the initial one plus u times the sum of the durations; segment lengths are the total divided by the number of segments.", "quantifier": "every initial length, rate, number of steps and durations, substep sizes, scheme", "why_tests_cant": "depends on the whole sequence of steps and stage evaluations", "anchors": ["source/Line.hpp: updateUnstretchedLength, setUnstretchedLength, setUnstretchedLengthVel", "source/Time.hpp: TimeScheme::Next", "source/Time.cpp: TimeSchemeBase::Update"]}
{"id": "C16", "title": "Line ends stay attached to exactly one support", "statement": "At any time each end of each line appears in the attachment list of exactly one point or rod end, before, during and after any sequence of line detachments; a detachment moves the selected ends to one new free point located at the old one and touches no other end; a detachment naming a line that is not attached there is reported as an error.", "quantifier": "every sequence of attachment and detachment operations, every number of lines and points", "why_tests_cant": "unbounded histories of structural changes", "anchors": ["source/MoorDyn2.cpp: MoorDyn::detachLines", "source/Point.cpp: Point::addLine, removeLine", "source/Rod.cpp: Rod::addLine, removeLine"]}
{"id": "C17", "title": "Time-triggered failures fire when their time is reached and only once", "statement": "A failure with a failure time is triggered in the first MoorDyn_Step ending at or after that time, not before, and never again.", "quantifier": "every list of failures, every sequence of step end times", "why_tests_cant": "unbounded sequences of steps", "anchors": ["source/MoorDyn2.cpp: MoorDyn::Step (718-732), detachLines"]}
{"id": "C18", "title": "Registering and removing objects keeps every other object's state", "statement": "Adding an object to the integrator appends a zero state for it and removing it deletes its state only: after any sequence of additions and removals, every registered object still owns the state it had, and the number of states equals the number of registered objects; adding twice or removing an unknown object is an error that changes nothing.", "quantifier": "every sequence of add/remove operations, every number of integrator stages", "why_tests_cant": "all interleavings", "anchors": ["source/Time.hpp: TimeScheme::AddLine.. RemoveBody, TimeSchemeBase::AddLine.. RemoveBody"]}
{"id": "C19", "title": "A point released by a failure is simulated", "statement": "The free point created when lines are detached is integrated, contributes its state to the simulation and receives the water kinematics like any other free point.", "quantifier": "every failure in every model", "why_tests_cant": "depends on combination of failure and later steps", "anchors": ["source/MoorDyn2.cpp: MoorDyn::detachLines"]}
{"id": "C20", "title": "CFL number and time step are inverse of each other and conservative", "statement": "For every object dt -> CFL -> dt is the identity; the internal time step chosen at MoorDyn_Init is not larger than the one requested nor than the one that the requested CFL allows for any line, point, rod or body; the CFL reported afterwards is the largest of all objects.", "quantifier": "every set of objects with any (possibly nested) attached objects, every requested dt/CFL", "why_tests_cant": "all trees of objects", "anchors": ["source/Util/CFL.hpp: CFL, NatFreqCFL, SuperCFL", "source/MoorDyn2.cpp: MoorDyn::Init (502-524)"]}
{"id": "C21", "title": "One-dimensional interpolation is exact, bounded and clamped", "statement": "Linear interpolation of tabulated data returns the tabulated value at each abscissa, a value between the two neighbouring data inside, and the first/last value outside; it never reads outside the table.", "quantifier": "every strictly increasing abscissa table, every data, every evaluation point (and every increasing sequence of evaluation points for the vector version)", "why_tests_cant": "unbounded tables and reals", "anchors": ["source/Util/Interp.hpp: interp_factor, interp, lerp"]}
{"id": "C22", "title": "Seabed depth is an interpolation of the bathymetry file", "statement": "The depth at any (x,y) lies between the smallest and largest depth in the bathymetry grid, equals the file's value at each grid point and is constant beyond the edges; the reported minimum and average depth are those of the grid.", "quantifier": "every bathymetry grid, every (x,y)", "why_tests_cant": "unbounded grids and reals", "anchors": ["source/Seafloor.cpp: calcInsertIndex, Seafloor::setup, getDepthAt, getAverageDepth, getMinimumDepth", "source/Util/Interp.hpp: interp2"]}
{"id": "C23", "title": "Wave grid look-ups are in range and periodic in time", "statement": "For any non-negative time the time index used in a wave grid is inside the table, the kinematics are periodic with the duration of the record, and continuous in time.", "quantifier": "every grid, every time", "why_tests_cant": "times are unbounded; wrap-around occurs beyond the record", "anchors": ["source/Waves.cpp: WaveGrid::getWaveKin", "source/Util/Interp.hpp: interp3, interp4Vec"]}
{"id": "C24", "title": "External wave kinematics reach the node they were asked for", "statement": "The i-th velocity/acceleration passed to MoorDyn_ExternalWaveKinSet is the one applied to the node whose coordinates were the i-th returned by MoorDyn_ExternalWaveKinGetCoordinates, for all nodes of all lines, rods, points and bodies; lists of insufficient or inconsistent size are rejected by the C++ method, and the C function reports an error if MoorDyn_ExternalWaveKinInit has not been called. The C function is not told the sizes of the arrays: it reads three numbers for every node.", "quantifier": "every system, every node, every value", "why_tests_cant": "ordering over arbitrary numbers of objects and nodes", "anchors": ["source/Waves.cpp: Waves::getWaveKinematicsPoints, setWaveKinematics", "source/MoorDyn2.hpp: ExternalWaveKin*"]}
{"id": "C25", "title": "Waves and current add up", "statement": "Water velocity (acceleration) at a point is the sum of the wave and the current velocity (acceleration); without waves or current it is zero.", "quantifier": "every position, time and combination of wave/current models", "why_tests_cant": "all option combinations and positions", "anchors": ["source/Waves.cpp: Waves::getWaveKin, Waves::setup, updateWaves"]}
{"id": "C26", "title": "Regular wave kinematics satisfy linear wave theory", "statement": "For a component of the summed-spectrum wave model: the vertical velocity at the mean surface is the time derivative of the elevation, the vertical velocity at the flat bed vanishes, the acceleration is the time derivative of the velocity at fixed point, and the velocity field is divergence free.", "quantifier": "every frequency component, position and time below the surface", "why_tests_cant": "identities between functions of real variables", "anchors": ["source/Waves/SpectrumKin.cpp: SpectrumKin::getWaveKin"]}
{"id": "C27", "title": "Moving a mass matrix to another point conserves kinetic energy", "statement": "The 6x6 mass matrix translated to another reference point gives the same kinetic energy for the same rigid motion; translating back recovers it; translating twice equals translating once by the sum; symmetry is kept.", "quantifier": "every 6x6 symmetric mass matrix, every offset, every velocity", "why_tests_cant": "quantifies over all matrices and vectors", "anchors": ["source/Misc.cpp: translateMass, translateMass6, rotateMass6", "source/Misc.hpp: getH"]}
{"id": "C28", "title": "Euler angle rotations are proper rotations", "statement": "The rotation matrix built from any three angles is orthogonal with determinant one, so lengths and angles are preserved; rotating a mass matrix preserves kinetic energy.", "quantifier": "every triple of angles", "why_tests_cant": "all real angles", "anchors": ["source/Misc.hpp: RotX, RotY, RotZ, EulerXYZ, rotateMass", "source/Misc.cpp: rotateMass6"]}
{"id": "C29", "title": "Internal line forces cancel", "statement": "The tension, internal damping and bending forces that the segments of a line apply to its nodes (ends included) add up to zero for any node positions, so that the net force on all the nodes is only weight, buoyancy, drag, added mass and seabed contact; node masses and submerged weights add up to those of the line.", "quantifier": "every number of segments, every node positions/velocities", "why_tests_cant": "all sizes and all states", "anchors": ["source/Line.cpp: Line::getStateDeriv"]}
{"id": "C30", "title": "Mooring lines never push", "statement": "The tension of a segment is zero when it is not stretched, positive and increasing with stretch otherwise, and is always directed along the segment; reported fairlead/anchor tensions are those of the end segments.", "quantifier": "every segment geometry, every stiffness (constant or tabulated)", "why_tests_cant": "all reals", "anchors": ["source/Line.cpp: Line::getStateDeriv, getNonlinearE", "source/Line.hpp: getNodeTen, getFASTtens"]}
{"id": "C31", "title": "Maximum tension reported bounds the end tensions", "statement": "The value returned by MoorDyn_GetLineMaxTen is at least the tension at every node of the line, including the fairlead, and is attained at some node.", "quantifier": "every line state", "why_tests_cant": "all states", "anchors": ["source/Line.cpp: MoorDyn_GetLineMaxTen, MoorDyn_GetLineFairTen"]}
{"id": "C32", "title": "Fluid drag and internal damping dissipate energy", "statement": "The power of the drag force on a line node, point or rod against the relative water velocity is never negative (drag follows the relative flow) and the axial damping force never feeds energy into a segment.", "quantifier": "every velocity, every current, every (constant or tabulated) damping", "why_tests_cant": "sign claim over all reals", "anchors": ["source/Line.cpp: Line::getStateDeriv (Dp, Dq, Td), getNonlinearC", "source/Point.cpp: Point::doRHS"]}
{"id": "C33", "title": "Seabed friction is bounded and opposes motion; the seabed only pushes", "statement": "The seabed friction on a line node never exceeds the kinetic limit, opposes the tangential velocity and vanishes without motion; the normal seabed force is never downwards.", "quantifier": "every node position, velocity and seabed slope", "why_tests_cant": "all reals with saturation branches", "anchors": ["source/Line.cpp: Line::getStateDeriv (1167-1213)"]}
{"id": "C34", "title": "Submergence of a segment is a fraction with the right limits", "statement": "The wetted fraction of a segment is in [0,1], one if both ends are below the free surface, zero if both are above, and does not depend on which end is listed first. In waves the surface is that at the ends of the segment: below both elevations the fraction is one, above both it is zero.", "quantifier": "every pair of node positions", "why_tests_cant": "all reals including surface crossings and equalities", "anchors": ["source/Line.cpp: Line::calcSubSeg"]}
{"id": "C35", "title": "A submerged rod obeys Archimedes", "statement": "The total buoyancy force on a fully submerged rod is vertical, equal to water density times gravity times its displaced volume, for every orientation and number of segments.", "quantifier": "every orientation, length, diameter, number of segments", "why_tests_cant": "all orientations/discretisations", "anchors": ["source/Rod.cpp: Rod::doRHS (1078-1182)"]}
{"id": "C36", "title": "Rod inertia does not depend on the discretisation", "statement": "The mass, first moment and moment of inertia of a rod about its end A are those of the uniform cylinder for any number of segments.", "quantifier": "every number of segments, mass, length, radius", "why_tests_cant": "all N", "anchors": ["source/Rod.cpp: Rod::doRHS (1258-1330)"]}
{"id": "C37", "title": "Wetted length of a rod is shared among its nodes", "statement": "For a partially submerged rod the submerged fractions of the nodes times their tributary lengths add up to the submerged length of the rod, and every fraction is in [0,1], whichever end is submerged.", "quantifier": "every number of segments, waterline crossing position and orientation", "why_tests_cant": "all N and reals", "anchors": ["source/Rod.cpp: Rod::doRHS (923-1075), calcSubSeg"]}
{"id": "C38", "title": "Rod input coordinates are honoured", "statement": "A rod defined by the coordinates of its two ends starts with its ends at those coordinates.", "quantifier": "every pair of distinct end coordinates", "why_tests_cant": "all geometries", "anchors": ["source/Rod.cpp: Rod::setup"]}
{"id": "C39", "title": "Catenary solver terminates and matches both ends", "statement": "The quasi-static catenary solver always terminates; when it succeeds the horizontal tension is positive, the first node is at the anchor and the last node at the fairlead within the tolerance, and end tensions balance the weight of the line.", "quantifier": "every geometry, stiffness, weight, friction, tolerance", "why_tests_cant": "termination for all inputs; reals", "anchors": ["source/QSlines.hpp: Catenary"]}
{"id": "C40", "title": "Points are in force balance with their lines", "statement": "The net force on a point is the sum of the forces with which the attached line ends pull on it plus its own weight, buoyancy, drag and applied force, and the mass is its own plus added plus that of the attached line ends; the order in which lines are attached is irrelevant.", "quantifier": "every number of attached lines and end forces", "why_tests_cant": "all attachments and permutations", "anchors": ["source/Point.cpp: Point::doRHS, getNetForceAndMass"]}
{"id": "C41", "title": "Rigid bodies move and load their attachments as a rigid body", "statement": "Velocities imposed on the points and rods of a body are those of a rigid motion (relative distances do not change) and the net force and moment returned are work-equivalent: the power of the attachment forces equals the power of the resultant.", "quantifier": "every body motion, every number of attachments", "why_tests_cant": "all motions and attachments", "anchors": ["source/Body.cpp: Body::setDependentStates, doRHS", "source/Misc.cpp: transformKinematics"]}
{"id": "C42", "title": "Orientation quaternions keep unit norm to first order", "statement": "The rate of change given to the orientation quaternion of a body or rod is orthogonal to it, hence the norm is stationary, and corresponds to the angular velocity.", "quantifier": "every unit quaternion and angular velocity", "why_tests_cant": "all reals", "anchors": ["source/Body.cpp: Body::getStateDeriv", "source/Rod.cpp: Rod::getStateDeriv"]}
{"id": "C43", "title": "Exceptions map to their documented error codes", "statement": "Every library exception thrown inside an API call is converted to its documented error code; no exception escapes through the C API.", "quantifier": "every exception kind, every API function", "why_tests_cant": "needs every failure path", "anchors": ["source/Misc.hpp: MOORDYN_THROW, MOORDYN_CATCHER", "source/MoorDyn2.cpp: C API"]}
{"id": "C44", "title": "Handles are validated", "statement": "Every API function given a null handle, a 0 or out-of-range object number, or an out-of-range node or attachment index reports an error and changes nothing.", "quantifier": "every index value and every function", "why_tests_cant": "2^32 index values", "anchors": ["source/MoorDyn2.cpp: CHECK_SYSTEM, MoorDyn_GetLine.., GetFASTtens", "source/Line.cpp: MoorDyn_GetLineNodePos..", "source/Point.cpp: MoorDyn_GetPointAttached", "source/Rod.hpp: getNodePos"]}
{"id": "C45", "title": "Legacy single-instance API life cycle", "statement": "With the legacy API at most one instance is alive; MoorDynInit replaces it only on success, MoorDynStep and MoorDynClose before a successful MoorDynInit report an error, and after a successful MoorDynClose the system is uninitialised.", "quantifier": "every sequence of legacy API calls and outcomes", "why_tests_cant": "unbounded sequences of calls", "anchors": ["source/MoorDyn.cpp: MoorDynInit, MoorDynStep, MoorDynClose"]}
{"id": "C46", "title": "Output rate", "statement": "With an output interval dtOut the output files get a row in the steps whose interval contains a multiple of dtOut and only in those; with a non-positive dtOut every step is written; in particular for a step smaller than dtOut the number of rows after time T is the number of multiples of dtOut reached.", "quantifier": "every sequence of steps, every dtOut", "why_tests_cant": "unbounded sequences", "anchors": ["source/MoorDyn2.cpp: MoorDyn::AllOutput"]}
{"id": "C47", "title": "Output rows match their header", "statement": "For any combination of output flags the number of values in each row of a line (rod) output file equals the number of column titles and of units.", "quantifier": "every set of flags, every number of segments", "why_tests_cant": "2^flags x sizes", "anchors": ["source/Line.cpp: Line::initialize, Line::Output", "source/Rod.cpp: Rod::openoutput, Rod::Output"]}
{"id": "C48", "title": "Tabulated property files are read back as given", "statement": "The curve used for a tabulated stiffness, damping or bending property has exactly the abscissas and ordinates of the file's rows, in order; more rows than supported, or malformed rows, are reported as errors; a plain number is used as a constant.", "quantifier": "every property file", "why_tests_cant": "all files", "anchors": ["source/MoorDyn2.hpp: MoorDyn::read_curve"]}
{"id": "C49", "title": "Body definition: drag areas", "statement": "The drag area of a body equals the values given in its CdA entry, for one (isotropic), two (translational|rotational), three or six entries.", "quantifier": "every number and value of entries", "why_tests_cant": "value space", "anchors": ["source/MoorDyn2.cpp: MoorDyn::readBody (CdA)"]}
{"id": "C50", "title": "State indices address disjoint, contiguous state blocks", "statement": "While reading the model each free object gets the index of its first state; the blocks (12 free body, 6 pinned body, 12 free rod, 6 pinned rod, 6 free point, 6(N-1) line) are disjoint, contiguous and cover the state vector, also after points are created by failures.", "quantifier": "every model, every failure sequence", "why_tests_cant": "all sequences of definitions", "anchors": ["source/MoorDyn2.cpp: readBody, readRod, ReadInFile (points, lines), detachLines"]}
{"id": "C51", "title": "Input sections are read without running off the file", "statement": "Reading an input file never accesses lines beyond the end of the file, whatever sections it has and wherever it is truncated.", "quantifier": "every list of lines", "why_tests_cant": "all truncations", "anchors": ["source/MoorDyn2.cpp: MoorDyn::ReadInFile, findStartOfSection"]}
{"id": "C52", "title": "Tokenisers lose nothing but separators", "statement": "Splitting a line yields its maximal non-blank words in order; joining them back with blanks and splitting again is the identity; no token is empty nor contains a separator; trailing blanks are removed by the trimming.", "quantifier": "every string", "why_tests_cant": "all strings", "anchors": ["source/Misc.cpp: split, rtrim, decomposeString, startswith, lower", "source/Misc.hpp: split"]}
{"id": "C53", "title": "Log routing", "statement": "A message is shown on the terminal iff its level is at least the verbosity, on the error stream iff it is an error, and is stored in the log file iff a file is open and the level is at least the file verbosity; changing the log file closes the previous one.", "quantifier": "every level, verbosity and sequence of settings", "why_tests_cant": "all combinations and sequences", "anchors": ["source/Log.cpp: Log::Cout, SetFile, SetVerbosity, SetLogLevel", "source/MoorDyn2.hpp: SetupLog"]}
{"id": "C54", "title": "6x6 mass matrices are returned complete", "statement": "MoorDyn_GetBodyM / MoorDyn_GetRodM fill the 36 entries of the matrix.", "quantifier": "every matrix", "why_tests_cant": "all matrices", "anchors": ["source/Misc.hpp: mat62array, array2mat6", "source/Body.cpp: MoorDyn_GetBodyM", "source/Rod.cpp: MoorDyn_GetRodM"]}
{"id": "C55", "title": "Time scheme names", "statement": "Scheme names are case-insensitive, unknown names are rejected with an error leaving the current scheme in use; switching the scheme keeps the simulation time and the state.", "quantifier": "every string, every state", "why_tests_cant": "all strings", "anchors": ["source/Time.cpp: create_time_scheme", "source/MoorDyn2.cpp: MoorDyn_SetTimeScheme", "source/MoorDyn2.hpp: SetTimeScheme"]}
{"id": "C56", "title": "Tension arrays for FAST are laid out per line", "statement": "MoorDyn_GetFASTtens writes for line i the horizontal and vertical components of the forces of the line at its fairlead and anchor at position i of the four arrays for i < numLines and nothing else; more lines requested than existing is an error.", "quantifier": "every number of lines requested", "why_tests_cant": "all numbers", "anchors": ["source/MoorDyn2.cpp: MoorDyn_GetFASTtens", "source/Line.hpp: getFASTtens"]}
{"id": "C57", "title": "Initial condition generation leaves the model parameters untouched", "statement": "After MoorDyn_Init the drag coefficients of every object and the wave mode are those of the input file, whatever the initial condition method and its outcome, and the initial time is zero.", "quantifier": "every model, every relaxation outcome", "why_tests_cant": "depends on run-time convergence", "anchors": ["source/MoorDyn2.cpp: icLegacy, icStationary, Init"]}
{"id": "C58", "title": "Wave frequency resampling covers the spectrum", "statement": "Resampling a spectrum to evenly spaced frequencies reproduces the given component at every given frequency that is a multiple of the spacing, keeps the range, and never reads out of the table; non-ascending frequencies are rejected.", "quantifier": "every list of two or more components whose largest frequency is not negative", "why_tests_cant": "unbounded lists and reals", "anchors": ["source/Waves/WaveSpectrum.cpp: DiscreteWaveSpectrum::interpEvenlySpaced"]}
{"id": "C59", "title": "Grid axes are the ones described", "statement": "An axis described by a list has those coordinates; one described by first, last and count has exactly count equally spaced, increasing coordinates from first to last.", "quantifier": "every description", "why_tests_cant": "all counts", "anchors": ["source/Waves.cpp: gridAxisCoords"]}
{"id": "C60", "title": "4D current files: every row counts", "statement": "Each row of a gridded 4D current file sets the current at its grid coordinates.", "quantifier": "every file", "why_tests_cant": "all files", "anchors": ["source/Waves/WaveGrid.cpp: construct4DCurrentGrid"]}
{"id": "C61", "title": "The wave number solves the dispersion relation", "statement": "The wave number used for a frequency has the sign of the frequency, is zero for zero frequency and opposite frequencies give opposite wave numbers. It satisfies the dispersion relation w^2 = g k tanh(k h) up to one part in ten thousand of w^2, and differs from the only positive solution of the relation by at most one part in ten thousand.", "quantifier": "every frequency, every positive gravity and depth", "why_tests_cant": "all reals", "anchors": ["source/Waves.cpp: WaveNumber"]}
{"id": "C62", "title": "Euler angles and quaternions describe the same orientation", "statement": "A body placed with given roll, pitch and yaw has the orientation RotX(roll) RotY(pitch) RotZ(yaw). The roll, pitch and yaw reported for a body reproduce its orientation, for all orientations including pitch of 90 degrees; when the pitch given is within (-90, 90) degrees and roll and yaw within [-180, 180) the reported angles are the given ones.", "quantifier": "every quaternion, every three angles", "why_tests_cant": "all orientations, the singular ones included", "anchors": ["source/Misc.hpp: canonicalEulerAngles, Quat2Euler, Euler2Quat", "source/Body.cpp: Body::setup, GetBodyOutput", "source/Body.hpp: getAngles"]}
{"id": "C63", "title": "The velocity of a fairlead on a coupled body is the rate of change of its position", "statement": "Within a step, the velocity given to a point attached to a coupled body is the derivative of the position given to it.", "quantifier": "every position and velocity passed to MoorDyn_Step, every attachment", "why_tests_cant": "derivatives over all motions", "anchors": ["source/Body.cpp: Body::updateFairlead, setDependentStates", "source/Misc.cpp: transformKinematics"]}
{"id": "C64", "title": "A line clamped to a rod transmits its end bending moment", "statement": "The force and moment that a line gives to the objects at its ends, together with the forces on its internal nodes due to bending, balance in moment: a bending moment at a clamped end is reacted by the rod.", "quantifier": "every line geometry and bending stiffness, pinned and clamped ends", "why_tests_cant": "a balance over all geometries", "anchors": ["source/Line.cpp: setup, getStateDeriv", "source/Line.hpp: getEndStuff", "source/Rod.cpp: doRHS"]}
{"id": "C65", "title": "Stiffness queries of a line", "statement": "MoorDyn_IsLineConstantEA gives 1 for a constant stiffness and 0 for a tabulated one; the stiffness set by MoorDyn_SetLineConstantEA is the one got by MoorDyn_GetLineConstantEA and the one of the tension.", "quantifier": "every line and stiffness", "why_tests_cant": "all lines", "anchors": ["source/Line.hpp: isConstantEA, getConstantEA, setConstantEA", "source/Line.cpp: MoorDyn_IsLineConstantEA"]}
{"id": "C66", "title": "A floating rod displaces its wetted volume", "statement": "The buoyancy of a vertical rod floating across the surface of still water is the weight of the water displaced by the part below the surface.", "quantifier": "every draft, length, diameter and number of segments", "why_tests_cant": "all drafts and discretisations", "anchors": ["source/Rod.cpp: Rod::doRHS (923-1183)"]}
{"id": "C67", "title": "Free objects obey Newton's second law", "statement": "The mass of a free rod or body times the acceleration of its centre of mass is the sum of the forces applied to it, and the rate of its angular momentum about the centre of mass is the sum of the moments, whatever its motion.", "quantifier": "every position, velocity and rotation of a free rod or body, every applied force", "why_tests_cant": "all states", "anchors": ["source/Rod.cpp: Rod::doRHS, getStateDeriv, getNetForceAndMass", "source/Body.cpp: Body::doRHS, getStateDeriv"]}
{"id": "C68", "title": "A pinned rod gives its body no moment about the pin", "statement": "A rod pinned to a body acts on the body by a force at the pin only: about the pin it exerts no moment, whatever its own weight and loads.", "quantifier": "every body, every rod pinned to it, every inclination and load", "why_tests_cant": "all configurations", "anchors": ["source/Body.cpp: Body::doRHS", "source/Rod.cpp: Rod::getNetForceAndMass"]}
{"id": "C69", "title": "The reaction returned for a coupled body balances loads and inertia", "statement": "The force returned by MoorDyn_Step for a coupled body is the sum of the forces on the points and rods attached to it less mass times acceleration of each of them, all moving rigidly with the body with the accelerations of the step.", "quantifier": "every coupled (or coupled pinned) body, every list of points and rods on it, every motion", "why_tests_cant": "all motions and attachments", "anchors": ["source/Body.cpp: Body::getFnet, doRHS", "source/Point.cpp: Point::getNetForceAndMass", "source/Rod.cpp: Rod::getNetForceAndMass"]}
{"id": "C70", "title": "Malformed entries of the input are reported", "statement": "An entry of the input file with fewer fields than its kind needs, or naming a type that was not defined, makes MoorDyn_Create fail with an error: it never leads to undefined behaviour.", "quantifier": "every kind of entry, every number of fields, every list of defined types", "why_tests_cant": "all malformed inputs", "anchors": ["source/MoorDyn2.cpp: readLineProps, readRodProps, readBody, readRod, ReadInFile (points, lines, failure, control)"]}
{"id": "C71", "title": "Dynamic relaxation stops when the tensions are steady", "statement": "MoorDyn_Init reports that the tensions of the fairleads converged only if, over the last dtIC seconds of the relaxation, the tension of no line changed by more than the fraction ThreshIC; otherwise it goes on until TmaxIC and reports that they did not; it always ends.", "quantifier": "every number of lines, every evolution of the tensions, every dtIC, TmaxIC and ThreshIC", "why_tests_cant": "all evolutions and options", "anchors": ["source/MoorDyn2.cpp: MoorDyn::icLegacy (188-329)", "docs/inputs.rst 568-575"]}
{"id": "C72", "title": "Output words mean what the documentation says", "statement": "Each word of the section OUTPUTS that is documented, written in any case, gives one column titled with that word, in the documented unit, whose value is the documented quantity of the named object or node; every other word, or one naming an object or node that does not exist, is refused without further effect.", "quantifier": "every word, every number of objects and nodes, every state of the system", "why_tests_cant": "all words and systems", "anchors": ["source/MoorDyn2.cpp: ReadInFile (1349-1584)", "source/MoorDyn2.hpp: GetOutput (804-819)", "source/Line.cpp: GetLineOutput", "source/Rod.cpp: GetRodOutput", "source/Body.cpp: GetBodyOutput", "source/Point.cpp: GetPointOutput", "docs/inputs.rst 655-740"]}
{"id": "C73", "title": "The fast Fourier transform is the Fourier transform", "statement": "The transforms used to build the wave grids give the discrete Fourier transform of their input and its inverse, for any number of samples, whatever its prime factors; transforming a record forth and back gives the record again.", "quantifier": "every even number of samples, every record, every spectrum, any previous content of the buffers", "why_tests_cant": "all lengths, including those with large prime factors, which use different code for each radix", "anchors": ["source/kiss_fft.cpp", "source/kiss_fftr.cpp", "source/Waves/WaveGrid.cpp: doIFFT (20-58)"]}
{"id": "C74", "title": "The wave grid holds samples of a linear wave field", "statement": "With a wave grid the elevation, velocity, acceleration and dynamic pressure held at every node of the grid are the samples, at the multiples of the time step of the grid, of one and the same sum of linear waves: acceleration is the time derivative of velocity, the vertical velocity at the still water level is that of the surface, and the velocity is free of divergence and rotation. The density times the acceleration is opposite to the gradient of the pressure up to two parts in ten thousand, and the pressure at the still water level is the weight of the water above it up to a part in 10^77.", "quantifier": "every spectrum with any number of frequencies, directions and complex amplitudes, every depth, gravity, density, node and sample", "why_tests_cant": "all spectra, nodes and times, and derivatives", "anchors": ["source/Waves/WaveGrid.cpp: fillWaveGrid (69-268)"]}
{"id": "C75", "title": "A wave elevation file is reproduced at the origin", "statement": "With WaveKin 3 the elevation held by the grid at the origin is the record of wave_elevation.txt, linearly interpolated at the multiples of dtWave, up to its last time.", "quantifier": "every record of two rows or more with increasing times, every dtWave", "why_tests_cant": "all records and intervals", "anchors": ["source/Waves/WaveGrid.cpp: constructWaveGridElevationData (409-541)", "docs/waterkinematics.rst 241-262"]}
{"id": "C76", "title": "A wave spectrum file means the same waves in both modes", "statement": "A component of wave_frequencies.txt with frequency w and complex amplitude a adds the wave |a| cos(wt - kl + arg a) to the elevation, with WaveKin 2 (grid, resampled at the smallest spacing) as well as with WaveKin 7 (sum of components).", "quantifier": "every file with ascending frequencies from zero on, every place and sample", "why_tests_cant": "all spectra", "anchors": ["source/Waves/WaveGrid.cpp: constructWaveGridSpectrumData (353-407)", "source/Waves/SpectrumKin.cpp: setup (11-37)", "docs/waterkinematics.rst 163-205, 291-300"]}
{"id": "C77", "title": "Current profile files are interpolated in depth and time", "statement": "With a current profile the current at any place is the linear interpolation in depth (and in time, if the profile depends on it) of the values of the file; beyond the range of the file, in depth or in time, it is the nearest value.", "quantifier": "every file of depths, times and velocities, every place and time", "why_tests_cant": "all profiles, places and times", "anchors": ["source/Waves/WaveGrid.cpp: constructSteadyCurrentGrid (543-618), constructDynamicCurrentGrid (620-733)", "source/Waves.cpp: CurrentGrid::getCurrentKin (203-245)", "docs/waterkinematics.rst"]}
{"id": "C78", "title": "An object moving with the water feels only the inertia of the water it displaces", "statement": "A part of a line, a rod, a point or a body whose velocity and acceleration are those of the water around it feels no drag, and the acceleration of the water acts on it as on the water it displaces, whatever the drag and added mass coefficients: a neutrally buoyant object follows the water.", "quantifier": "every line, rod, point and body, every velocity and acceleration of the water, all coefficients", "why_tests_cant": "all states and coefficients; the terms are spread over force and mass computations of different objects", "anchors": ["source/Line.cpp: getStateDeriv (885-901, 1111-1166)", "source/Rod.cpp: doRHS (1033-1181)", "source/Point.cpp: doRHS (320-383)", "source/Body.cpp: doRHS (539-632)"]}
{"id": "C79", "title": "Options of the input file", "statement": "Every documented option of the options section sets the documented quantity to the value on its line, whatever the order of the lines; an option that is not given has its documented default; lines with other names change nothing; a value that cannot be read makes MoorDyn_Create fail.", "quantifier": "every input file with an options section, every list of option lines, in every order", "why_tests_cant": "all lists of lines and orders; an alias or a default is easily missed", "anchors": ["source/MoorDyn2.cpp: ReadInFile (856-899), readOptionsLine (2093-2190), constructor (79-138), water depth (1074-1077)", "docs/inputs.rst 545-597"]}
{"id": "C80", "title": "Files are written beside the input file and never over it", "statement": "The results and the log are written in the directory of the input file, to files whose names begin with its name without the extension; all these files are different from each other, from the input file and from those of other input files.", "quantifier": "every path of an input file, every file written", "why_tests_cant": "all paths, including those with dots in directories, without directory, without extension", "anchors": ["source/MoorDyn2.cpp: constructor (104-110), Init (577), ReadInFile (1161), readBody (1931), readRod (2054)", "source/MoorDyn2.hpp: SetupLog (661)"]}
{"id": "C81", "title": "The stationary solver ends at rest near the equilibrium", "statement": "With the default generation of initial conditions (the stationary solver) MoorDyn_Init ends at the latest one dtIC after TmaxIC; it never gives a velocity to any free object; when it ends before TmaxIC the accelerations left are below ThreshIC times those at the beginning.", "quantifier": "every system, every force law, every dtM, dtIC, TmaxIC and ThreshIC, every evolution of the state", "why_tests_cant": "all systems and options", "anchors": ["source/MoorDyn2.cpp: MoorDyn::icStationary (331-403)", "source/Time.cpp: StationaryScheme::Step (176-223)", "source/State.cpp: MakeStationary (402-440, 842-855)", "docs/inputs.rst 568-575"]}
{"id": "C82", "title": "The columns of line and rod types mean what the documentation says", "statement": "A line type row of the input file gives lines the mass per length, diameter, axial stiffness EA, damping (BA, or a fraction of the critical damping of a segment when negative), and drag and added mass coefficients of its columns, whatever the number of segments: the mass, displaced volume and weight of a line are those of its length, a stretched segment pulls with EA times its strain (or the tension of the table), and the coefficients refer to frontal area, surface and displaced mass. Likewise for a rod type: mass per length, and drag and added mass of the submerged rod across its axis and at its two ends.", "quantifier": "every row of the input file, length, number of segments and position of lines and rods, every velocity of the water", "why_tests_cant": "All rows, all discretisations and positions; a test checks one line type on one line", "anchors": ["source/MoorDyn2.cpp: MoorDyn::readLineProps (1715-1767), readRodProps (1768-1798)", "source/Line.cpp: Line::setup (124-192), Line::initialize (408-443)", "source/Rod.cpp: Rod::setup (80-140)", "docs/inputs.rst: Line Types, Rod Types"]}
{"id": "C83", "title": "Zero-length rods join and clamp cables", "statement": "A rod of no segments joins two power cables: it passes the bending moment from one cable to the other and adds no mass or load of its own. Fixed, it clamps the end of a cable in the direction given in the input file.", "quantifier": "every pair of cables attached to the rod, every position, sea state and coefficients of the rod type; every cable and direction of a clamp", "why_tests_cant": "All geometries and stiffnesses; a test joins two equal cables", "anchors": ["source/Rod.cpp: Rod::setup (80-140), setDependentStates (545-602), setState (429-456), doRHS (866-1358)", "source/Line.cpp: setEndOrientation, getEndSegmentMoment (704-771)", "docs/structure.rst: Rods, special case of zero elements"]}
{"id": "C84", "title": "Attachment words of bodies, points, rods and lines", "statement": "The attachment word of a body, point or rod makes it what the manual says (fixed, coupled, coupled pinned, pinned or free; fixed to or pinned to body # where the word is Body#), whatever the case of its letters; the attachments of a line end are the point or rod end with the given ID. Words that are not in the manual and IDs that do not exist make MoorDyn_Create fail with an error. Coupled objects are ordered as their rows.", "quantifier": "every word, every number of rows in each section, every numbering of the rows", "why_tests_cant": "All words and all lists of rows; tests use a few spellings", "anchors": ["source/MoorDyn2.cpp: ReadInFile (961-1345), readBody (1896-1927), readRod (1965-2093)", "source/Misc.cpp: str::decomposeString, str::isOneOf (96-145)", "docs/structure.rst: Points, Rods, Bodies", "docs/inputs.rst: Bodies, Rods, Points, Lines lists"]}
{"id": "C85", "title": "The righting moment of an inclined floating rod", "statement": "The moment of the buoyancy about the lower end of a rod that crosses the surface at an angle is that of the water it displaces: it turns the rod upright, about a horizontal axis across it, with the value that the integral of the water pressure over the wet surface gives, up to the discretisation of the length.", "quantifier": "every rod (diameter, length, number of segments), every inclination and immersion, density of the water and gravity", "why_tests_cant": "All inclinations and immersions; a test on the draught of an upright buoy does not see the moment", "anchors": ["source/Rod.cpp: Rod::doRHS (923-1035, 1078-1082, 1127-1194, 1264-1278)", "docs/inputs.rst 730"]}
{"id": "C86", "title": "The force on a submerged rod", "statement": "In water that moves as a whole a submerged rod that does not turn feels its weight, the weight of the displaced water, drag across the axis on the area d L and along it on the two ends, the force ρ V a that accelerates the displaced water, the inertia of the added masses, and the forces of its lines, and nothing else, whatever the number of segments.", "quantifier": "every submerged rod off the bottom, every orientation, velocity of rod and water, acceleration of the water, coefficients, lines", "why_tests_cant": "All orientations, coefficients and discretisations; the terms are spread over side and caps", "anchors": ["source/Rod.cpp: Rod::doRHS (1036-1185, 1221, 1245, 1264-1278)", "docs/structure.rst: Rods"]}
{"id": "C87", "title": "The seabed carries rods", "statement": "A rod pressed into the bottom gets the pressure kBot times the penetration (less cBot times the rising speed) on the area d L, acting upwards, at its middle when it lies level; the bottom only pushes, rubs as under lines, and does not act on rods that do not touch it. The number of segments has no effect.", "quantifier": "every rod, position, velocity, number of segments, kBot and cBot; every depth", "why_tests_cant": "All positions and velocities, with branches at the contact", "anchors": ["source/Rod.cpp: Rod::doRHS (1100-1121)", "docs/inputs.rst 173-185, 566-590"]}
{"id": "C88", "title": "The sea is the one that WaveKin and Currents ask for", "statement": "Every pair of documented values of the options WaveKin and Currents gives the waves and the current that the manual describes, together; values that are not implemented or unknown make MoorDyn_Init fail rather than give another sea; above the surface there is no current.", "quantifier": "every pair of values of WaveKin, Currents and UnifyCurrentGrid", "why_tests_cant": "Tests use a few pairs; the wrong ones run without a message and give plausible results", "anchors": ["source/Waves.cpp: Waves::setup (256-508), CurrentGrid::getCurrentKin (203-245)", "source/Waves/WaveOptions.hpp", "source/MoorDyn2.cpp: Init (543-560), readOptionsLine (2146-2166)", "docs/waterkinematics.rst"]}
{"id": "C89", "title": "More substeps bring an implicit scheme nearer to the implicit solution, for small time steps", "statement": "docs/tschemes.rst says that the derivatives of the semi-implicit schemes are progressively improved in the substeps, and that an arbitrarily large time step can be considered provided that enough substeps are configured. With the BEulerN and midpointN schemes and a rate that depends on the state with Lipschitz constant L, if L times the (half) time step is below one then the implicit equation has exactly one solution, the state after the step differs from that solution by at most a factor (0.9 + 0.1 k)^(N-1), with k = L fac dt, of the error of the initial guess, and tends to it as N grows. The second half of the documented sentence does not hold: for an undamped oscillation with (omega fac dt)^2 >= 19, and for a damper with a dt >= 19, no number of substeps helps; the latter multiplies the state by more than 300 in a step in which the exact solution decays. The relaxation factor is in [0, 1) for all the schemes but ACA, where it exceeds one at the first of 24 or more substeps, so that this substep goes away from the new derivative.", "quantifier": "For every normed state space, Lipschitz rate, time step, initial state, initial guess and number of substeps; the counterexamples for every number of substeps.", "why_tests_cant": "A test runs a scheme with one number of substeps; that the error vanishes as the number grows, or that no number is enough, is a statement about infinitely many runs.", "anchors": ["docs/tschemes.rst:150-225", "docs/tschemes.rst:264-300", "source/Time.cpp:490-511", "source/Time.cpp:636-760"]}
{"id": "C90", "title": "After a step the positions and the forces that can be asked belong to the returned time", "statement": "A coupled code calls MoorDyn_Step and then uses the returned forces, or queries tensions and positions, as the ones of the returned time. After each call the positions and velocities held by the objects are the state of the integrator at the returned time. The forces (the array f, line tensions, the forces of points, rods and bodies, the values written to the output files) are those computed in the last evaluation of the scheme: at the beginning of the last internal step for Euler, local Euler, Heun and Adams-Bashforth, in its middle for RK2 and midpoint, at its end for RK4, BEuler and ACA, beyond it for Wilson. So they are never newer than the returned time nor older than one internal step dtM, except for Wilson. They are not the forces of the positions that are shown: with Euler, whenever anything moves, both the state and the time differ.", "quantifier": "For all objects (any behaviour), every scheme with at least one evaluation per step, every state, every length of the call and every dtM.", "why_tests_cant": "A test compares forces with a tolerance in one run; the instant the forces belong to depends on the scheme, on the number of internal steps and on the last, shorter one.", "anchors": ["source/Time.cpp:39-150", "source/Time.cpp:231-803", "source/MoorDyn2.cpp:605-760", "source/MoorDyn2.hpp:486-532", "source/MoorDyn2.h:179-196"]}
{"id": "C91", "title": "The highest mode of the segments of a line is the one of the manual", "statement": "The manual (troubleshooting section) tells users how to choose segments, damping and time step from the highest axial mode of a discretized line, in which adjacent nodes move out of phase. Along a straight, stretched line each inner node has the mass w L/N and feels, if its neighbours are displaced opposite to it, a stiffness 4 EA N/L and a damping 4 BA N/L; a negative entry -zeta in the BA column gives this mode exactly the damping ratio zeta. No natural mode of a line held at its ends, with any number of segments, has a frequency above 2 N/L sqrt(EA/w). The option CFL should be the ratio of time step and natural period of this mode.", "quantifier": "For all straight stretched lines, positions, velocities along the line, EA > 0, w > 0, BA or zeta, lengths and numbers of segments; for every mode of vibration.", "why_tests_cant": "Tests never look at the vibration of single nodes, and the bound on the frequency is over all modes and numbers of segments.", "anchors": ["source/Line.cpp:150-300", "source/Line.cpp:780-1000", "source/Line.cpp:165-167", "docs/troubleshooting.rst:5-80", "docs/inputs.rst:556-558"]}
{"id": "C92", "title": "The time step chosen from the natural period keeps the segments of a line stable", "statement": "Users choose dtM or CFL from the natural period of the segments so that their vibration does not blow up; the defaults are CFL 0.5 and the scheme RK2. For every mode of vibration, each step of Euler, RK2 or RK4 multiplies the amplitude by a factor that depends only on the damping ratio and the product of time step and natural frequency: if it is at most one the amplitude never exceeds its first value, if it is more than one the energy exceeds every bound however small the disturbance. Without damping Euler and RK2 are unstable at every time step and RK4 is stable exactly up to sqrt(8)/omega; with critical damping Euler and RK2 are stable exactly up to 2/omega; RK2 is stable whenever (omega dt)^3 is at most 4 zeta. With the default options a mode at the frequency of the manual should not be amplified.", "quantifier": "For all systems of objects whose rate of change makes two linear functionals the displacement and velocity of a damped mode; every state, time step, number of steps, natural frequency and damping ratio in [0,1].", "why_tests_cant": "Stability is about all numbers of steps and all disturbances; a test that runs without blow-up shows one of each.", "anchors": ["source/Time.cpp:231-283", "source/Time.cpp:400-520", "source/Line.cpp:165-167", "source/MoorDyn2.cpp:90", "source/MoorDyn2.cpp:495-527", "source/MoorDyn2.cpp:1616-1620", "docs/troubleshooting.rst:66-80", "docs/inputs.rst:556-562"]}
{"id": "C93", "title": "Internal pressure loads the bends of a line and tables give bending moments", "statement": "With MoorDyn_SetLinePressBend and MoorDyn_SetLinePressInt a user models a pressurised hose. At every node where the line bends the force of the pressure has the size p A times the change of direction between the adjacent segments, times unstretched over stretched length, p being the internal pressure less the weight of the water above and the dynamic pressure of the waves; it lies in the plane of the bend, at right angles to the straight line between the two neighbouring nodes, and an internal pressure above that of the water pushes the node away from them. Between equal segments it points exactly along the change of direction, so that in a line with equal segments and pinned ends a uniform pressure amounts to p A (times unstretched over stretched length) at both ends of the line. With a table of bending moments the moment acting at every node is the one of the table at the curvature of the node.", "quantifier": "For all lines, positions, pressures, waves, numbers of segments and tables; at every inner node bent beyond the numerical tolerance.", "why_tests_cant": "Tests use one geometry, one pressure; the law holds at each node for every angle of the bend, and the resultant for every number of segments.", "anchors": ["source/Line.cpp:80-92", "source/Line.cpp:825-859", "source/Line.cpp:924-1093", "source/Line.hpp:440-480", "source/Line.cpp:1640-1700", "source/Misc.cpp:331-359"]}
{"id": "C94", "title": "The inertia of coupled objects follows the imposed motion", "statement": "A caller of MoorDyn_Step imposes positions and velocities of coupled bodies and rods; the accelerations needed for their inertia and for what hangs on their pins are derived from the velocities. In every call but the first the acceleration used is the change of the given velocity over the preceding call, divided by the length of the present one: with steps of equal length it is a value the true acceleration had during the preceding step, and exact for uniform acceleration. During the call the position is extrapolated with the given velocity. The rotation of a coupled pinned body or rod obeys the law of angular momentum about the accelerating pin.", "quantifier": "For all motions, sequences of steps, bodies, rods, points and loads; the law of angular momentum for objects which do not rotate at that instant.", "why_tests_cant": "A test imposes one motion with one step and compares with a tolerance; the law holds for every motion and the failures show only in the first call, with varying steps or for rotating rods.", "anchors": ["source/MoorDyn2.cpp:430-475", "source/MoorDyn2.cpp:605-686", "source/Body.cpp:394-452", "source/Body.cpp:473-510", "source/Rod.cpp:459-509", "source/Rod.cpp:604-686", "docs/drivers.rst:36-41"]}
{"id": "C95", "title": "The Python functions reach what they announce and release what they take", "statement": "Each function of the Python module reaches the C function it is named after, with its own arguments in order, and asks for the kind of instance its help announces. Init, Step, SetWaveKin and SetLinePressInt give MoorDyn exactly the numbers they are given when these are as many as required; otherwise an exception is raised and no simulation changes. Step returns one force for each coupled degree of freedom. Calls give back the references and memory they take, errors raise exceptions, and a closed system cannot be used by mistake.", "quantifier": "For all functions of the module and numbers of arguments; for all values passed, states of all systems, behaviours of the C functions, and sequences of repeated calls.", "why_tests_cant": "Tests call the common functions once with good arguments; functions that can never work, references lost in each call and flags read from uninitialised memory go unnoticed.", "anchors": ["wrappers/python/moordyn/moordyn.py:65-1380", "wrappers/python/cmoordyn.cpp:44-75", "wrappers/python/cmoordyn.cpp:215-373", "wrappers/python/cmoordyn.cpp:425-587", "wrappers/python/cmoordyn.cpp:908-985", "wrappers/python/cmoordyn.cpp:2228-2305", "wrappers/python/cmoordyn.cpp:2736-2997", "docs/drivers.rst:139-155"]}
{"id": "C96", "title": "The Fortran, Rust and MATLAB functions hand over what the C functions expect", "statement": "Each function of the Fortran module is bound to the C function it is named after and declares the parameters of its prototype, so each value, array and handle arrives as it was passed, whatever the calling convention of the platform; so does each function declared for Rust. The MATLAB step and initialisation pass on the positions and velocities of the coupled degrees of freedom, raise the errors of the library and return one force for each degree of freedom.", "quantifier": "For all functions of the Fortran module and of the Rust declarations and all values passed to them, under the System V and the Microsoft calling conventions; for all arrays passed from MATLAB and all behaviours of the library.", "why_tests_cant": "A Fortran interface block is believed by the compiler: a wrong one compiles, links and passes any test that does not look at that value on that platform.", "anchors": ["wrappers/fortran/MoorDyn.f90:79-702", "wrappers/fortran/MoorDyn.f90:705-1066", "source/MoorDyn2.h:104-560", "source/Waves.h:69-78", "source/Line.h:139-160", "wrappers/matlab/moordyn_matlab.h:63-95", "wrappers/matlab/MoorDynM_Step.cpp:40-58", "wrappers/matlab/MoorDynM_Init.cpp:40-49"]}
{"id": "C97", "title": "The files that describe the sea are read as documented", "statement": "Each of the files wave_frequencies.txt, wave_elevation.txt, water_grid.txt, current_profile.txt, current_profile_dynamic.txt and current_profile_4d.txt is looked for beside the input file. A file in the documented format gives exactly the numbers written in it, whatever the blanks between them and at the ends of the lines; a missing file, a line with too few numbers or a word that is no number is reported as an error.", "quantifier": "For all contents of the file system, all paths of input files and all texts of the files.", "why_tests_cant": "A test reads the files that come with it; which texts are silently misread, or read outside the memory, follows only from the reading itself.", "anchors": ["source/Waves/WaveSpectrum.cpp:72-128", "source/Waves/WaveGrid.cpp:293-351", "source/Waves/WaveGrid.cpp:408-452", "source/Waves/WaveGrid.cpp:541-596", "source/Waves/WaveGrid.cpp:616-691", "source/Waves/WaveGrid.cpp:733-844", "source/Waves.cpp:68-101", "source/Waves.cpp:363-374", "source/MoorDyn2.cpp:104-110", "docs/waterkinematics.rst:455-491"]}
{"id": "C98", "title": "The states of all the objects are one vector", "statement": "The time schemes compute with the states of all lines, points, rods and bodies at once. Adding, subtracting, scaling and mixing states or rates, and the predictors of Newmark and Wilson, act on every node, point, rod and body by itself and in the same way, so that an object moves as if it were alone with its rates; and combining the states of systems with different numbers of objects or nodes is refused.", "quantifier": "For all numbers of objects and of nodes of each line, all states and rates, all time steps and weights, and all expressions built from these operations.", "why_tests_cant": "A test steps a given system; that no object is skipped or combined with another one's rates, for any numbers of objects, is a statement about all of them.", "anchors": ["source/State.cpp:83-177", "source/State.cpp:179-211", "source/State.cpp:259-303", "source/State.cpp:305-401", "source/State.cpp:442-596", "source/State.cpp:645-714", "source/State.cpp:763-931", "source/State.hpp:256-440", "source/Misc.cpp:172-198", "source/Time.cpp:405-490"]}
{"id": "C99", "title": "The horizontal axes can be chosen freely", "statement": "Where the origin is, in which direction x points, and for lines and points also which way y goes, are choices of the user. If everything that is given (positions, velocities, currents, waves, bathymetry, motions of the coupled objects) is turned about the vertical, mirrored or shifted horizontally, then all forces, mass matrices and accelerations, and after any number of calls all positions and velocities, are turned, mirrored and shifted in the same way, and all reported tensions are the same.", "quantifier": "For all turns about the vertical by any angle, mirror images (lines and points), horizontal shifts, lines, points, rods and bodies with attachments, seas, sea beds and bottom friction; whole simulations for all systems of lines and of fixed, coupled and free points, all time schemes except Anderson's, all sequences of calls and of motions of the coupled points.", "why_tests_cant": "A test compares two headings of one system; a sign or an axis mixed up in one term shows only for some directions, and the property is about all of them and about all trajectories.", "anchors": ["source/Line.cpp:772-1264", "source/Point.cpp:223-383", "source/Rod.cpp:865-1345", "source/Body.cpp", "source/Misc.cpp:200-330", "source/Time.cpp:39-150", "source/Time.cpp:231-803", "source/Time.hpp:1286-1290", "source/MoorDyn2.cpp:620-714"]}
{"id": "C100", "title": "It does not matter which end of a line is called A", "statement": "Which end of a line is written first in the input, end A or end B, is a choice of the user. If the line is counted from its other end (its nodes and segments in the opposite order, each end attached to the same object), each node has the same mass and the same force, each end passes the same force, moment and mass on to the object it is attached to, and the tensions are the same except that their direction is opposite. A whole simulation of lines and points in which some lines are counted from the other end gives the same motions.", "quantifier": "For all lines with any number of segments, unstretched lengths, positions, velocities, constant or tabulated stiffness, damping and bending stiffness, internal pressure, pinned or cantilevered ends, all seas and sea beds, and all simulations of lines and points with any time scheme, provided no end of a segment is ever exactly as high as the water over it.", "why_tests_cant": "A test reverses one line in one shape; the property is about every shape, every node and every term of the force.", "anchors": ["source/Line.cpp:613-661", "source/Line.cpp:772-1264", "source/Line.cpp:1266-1330", "source/Line.cpp:MoorDyn_GetLineMaxTen"]}
{"id": "C101", "title": "The order of the objects in the input does not matter", "statement": "In which order bodies, rods, points and lines are described, and so which numbers they have, and in which order the lines of a point or the points of a body are listed, are choices of the user. Two simulations of the same objects in two orders, given the same motions of the coupled objects, go through the same states: each line has the same positions, velocities and therefore tensions, each point the same position, velocity and force, at all times.", "quantifier": "For all systems of bodies, rods, points and lines of all kinds in which each end of a line is held once, all permutations of the bodies, rods, points, lines and of the attachments, all time schemes (also Anderson's, with its test of convergence), local time steps, seas, motions and sequences of calls.", "why_tests_cant": "A test compares two orders of one system; objects that are updated one after the other can see half-updated neighbours in ways that depend on the order, on the scheme and on the system, and the property is about all of them.", "anchors": ["source/Time.cpp:39-150", "source/Time.cpp:231-803", "source/Time.hpp:1286-1385", "source/Point.cpp:205-383", "source/Line.cpp:663-704", "source/MoorDyn2.cpp:620-714"]}
{"id": "C102", "title": "In still water a mooring system does not gain energy", "statement": "For lines and points as MoorDyn simulates them, in still water over a flat bottom and with every point that is not free held in place, let the energy be the sum of: the kinetic energy of the masses (with the water they carry), the potential energy of weight less buoyancy, the work of the constant forces applied to points, the elastic energy of the stretched segments and the elastic energy of the bottom under the nodes. Along every motion whose accelerations are those that MoorDyn computes, this energy at a later time is not larger than at an earlier time: internal damping, drag, bottom damping and friction only take energy, the tensions only exchange it, and the forces which lines pass to points at their ends do as much work on the points as they take from the lines. If coupled points move, with constant velocities as during a step of MoorDyn, the energy grows by no more than the work done against the forces which MoorDyn reports for them. A free body in still water does not gain energy either, as long as its added mass is the same in all directions; otherwise it may. A free rod that turns may gain energy even where nothing acts on it.", "quantifier": "for every number of lines, segments and points, every way of connecting them, all parameters that are not negative, every continuous stiffness curve through zero, every motion obeying the rates except at finitely many instants, and every two times", "why_tests_cant": "A test follows one simulation with one set of parameters, and its integrator adds an error of its own to the energy; whether the forces themselves can feed energy is a statement about all configurations and velocities at once.", "anchors": ["source/Line.cpp:772-1264", "source/Line.hpp:686-706", "source/Point.cpp:279-383", "source/Time.cpp:91-150"]}
{"id": "C103", "title": "The elastic forces of a line give back the work put into them", "statement": "Stretching and bending are elastic: whatever motion the nodes of a line go through, the work of the tensions, and that of the bending forces, is the elastic energy at the beginning less that at the end, and over a closed cycle of the shape it is zero. For the tensions this holds for every motion, every number of segments and every continuous stiffness curve. For the bending forces it is false: bent while its segments are long, shortened, straightened while they are short and lengthened again, a line has done work although it is back in its first shape. It holds for the bending forces as long as the segments keep their lengths.", "quantifier": "for every line, every number of segments, every differentiable motion of the nodes and every two times", "why_tests_cant": "Conservation of energy over all closed motions cannot be sampled; the failure needs a motion combining bending and stretching, which no test of bending or of stretching alone contains, and its effect in a simulation is a slow gain that looks like an error of the integrator.", "anchors": ["source/Line.cpp:797-859", "source/Line.cpp:906-1071", "source/Misc.cpp:331-359"]}
{"id": "C104", "title": "What is given back for the points balances the loads and the inertia of the whole system", "statement": "In a system of lines and points (without internal pressure in the lines) the forces that MoorDyn_Step gives back for the coupled points, with those on the fixed points, add up to all that acts on the system from outside (weight, buoyancy, drag, inertia of the water, bottom, forces applied to points) less mass times acceleration of everything that moves freely; and so do their moments about any place. No line force is lost or counted twice, and the lines stay attached to their points during the whole simulation, with every integrator. Where the mass of the carried water does not depend on the direction and points are given constant velocities, the inertia is the rate of change of momentum and of angular momentum of the whole system.", "quantifier": "for every number of lines and points, every way of attaching them, every sea, every state the integrators can reach, every stiffness and bending stiffness", "why_tests_cant": "A test can compare the forces of one system in one state with a sum made by hand; that nothing is lost or counted twice for every network and state, moments and inertia included, is a statement about all of them.", "anchors": ["source/Time.cpp:39-150", "source/Point.cpp:223-383", "source/Line.cpp:663-704", "source/Line.cpp:853-1262", "source/Line.hpp:686-706", "source/MoorDyn2.hpp:524-529"]}
{"id": "C105", "title": "A symmetric mooring stays symmetric", "statement": "Take a system of lines and points that looks the same after a turn about a vertical axis or a reflection in a vertical plane, with lines and points taking each other's places (three equal lines around a platform, two sides of a mooring), with bottom and water having the same symmetry. If the start is symmetric and the motions given to MoorDyn_Step are symmetric, every later state is exactly symmetric, with every integrator, step and number of calls. The forces given back for counterparts are turned or reflected into each other, their fairlead tensions are equal, and a point that is its own counterpart stays in the plane (on the axis) with no force out of the plane (with a vertical force). If lines are exchanged end for end, no end of a segment may be exactly as high as the surface over it.", "quantifier": "for every number of lines and points, every symmetry, every symmetric bottom and water, every integrator (those that iterate until a tolerance is met included), every sequence of calls", "why_tests_cant": "A test can look at one symmetric layout for some steps; that no integrator and no ordering of lines breaks a symmetry of any layout is a statement about all of them.", "anchors": ["source/Time.cpp:39-150", "source/Time.hpp:1180-1400", "source/Point.cpp:205-383", "source/Line.cpp:663-704", "source/Line.cpp:853-1262", "source/MoorDyn2.hpp:524-529"]}
{"id": "C106", "title": "Moorings that are not connected do not influence each other", "statement": "If a system of bodies, rods, points and lines has a part that nothing but the ground connects to the rest, then with the same internal time step, bottom and water the positions, velocities, tensions and the forces given back for the part are those of the part simulated alone: they do not depend on what the rest is, where it starts and how it is moved. Several moorings can be put in one file.", "quantifier": "for every number of bodies, rods, points and lines in the part and in the rest, every motion given to MoorDyn_Step, every sequence of calls, every integrator but those of Anderson's kind", "why_tests_cant": "A test can compare two files for some steps; that nothing leaks from one mooring to another for any layout, motion of the rest and integrator is a statement about pairs of all executions.", "anchors": ["source/Time.cpp:39-150", "source/Time.hpp:1286-1373", "source/Point.cpp:205-383", "source/Line.cpp:663-704", "source/Line.cpp:853-1262", "source/MoorDyn2.cpp:502-523", "source/MoorDyn2.cpp:977-1100"]}
{"id": "C107", "title": "Towing through the water is the same as lying in the opposite current", "statement": "Lines and points that are carried through the water with a steady horizontal velocity, and the same lines and points kept in place in water that has the opposite velocity in addition, go through the same shapes: at each time positions differ by the distance travelled, velocities by the velocity, while tensions, all forces and the forces given back by MoorDyn_Step are the same. Only motion relative to the water counts. This holds without anchors, over a plane bottom without friction. It holds likewise for the forces, mass matrices and accelerations of rods and bodies, which have no friction on the bottom.", "quantifier": "for every number of lines and points, every horizontal velocity, every motion given to MoorDyn_Step, every sequence of calls with any time steps, every state of the sea, every integrator but Heun's and Wilson's", "why_tests_cant": "A test can tow one array at one speed and compare with one current; that only relative motion enters, for all speeds, motions, seas and integrators, is a statement about pairs of all executions.", "anchors": ["source/Time.cpp:39-150", "source/Time.cpp:231-803", "source/Point.cpp:205-383", "source/Line.cpp:663-704", "source/Line.cpp:853-1262", "source/MoorDyn2.cpp:609-760"]}
{"id": "C108", "title": "The results do not depend on the system of units", "statement": "If all input of lines, points and sea is given in another consistent system of units (of length, time and mass), then positions, velocities, tensions and the forces given back by MoorDyn_Step are the same quantities in the new units, at the same times. The same law holds for model tests: a model of scale x after Froude, in the same fluid and under the same gravity, with times and velocities scaled by the square root of x, has forces scaled by the cube of x. No dimensional constant is hidden in the forces.", "quantifier": "for every choice of the units of length, time and mass, every number of lines and points with any properties and tables, every motion given to MoorDyn_Step, every sequence of calls with any time steps, every state of the sea, every integrator", "why_tests_cant": "A test can run one case in two systems of units; that every term of the forces has the right dimension for all parameters, states, motions and integrators is a statement about pairs of all executions.", "anchors": ["source/Line.cpp:62-122", "source/Line.cpp:613-656", "source/Line.cpp:853-1262", "source/Misc.hpp:161-169", "source/Misc.hpp:788-817", "source/Point.cpp:205-383", "source/Time.cpp:39-150", "source/Time.cpp:231-803", "source/Waves.cpp:919-976", "source/MoorDyn2.cpp:609-760"]}
{"id": "C109", "title": "A simulation continued from a saved state goes on as if it had not been interrupted", "statement": "Save a simulation with MoorDyn_Save, load it with MoorDyn_Load into a system created from the same input file, and go on with MoorDyn_Step: positions, velocities and the forces given back are those that the simulation without interruption gives, at every later time. It does not matter what was done before with the system into which the state is loaded. In a system of lines and points an evaluation of the forces depends on the state, the time and the motion of the coupled objects only, not on what was evaluated before.", "quantifier": "for every number of bodies, rods, lines and points, every motion given to MoorDyn_Step, every sequence of calls before saving, before loading and after loading, with any time steps, and every integrator", "why_tests_cant": "A test can compare one restarted run with one uninterrupted run; that nothing else is remembered, for all states, motions, histories and integrators, is a statement about pairs of all executions.", "anchors": ["source/MoorDyn2.cpp:609-805", "source/Time.hpp:620-719", "source/Time.hpp:1080-1106", "source/Time.cpp:39-150", "source/Time.cpp:231-803", "source/Point.cpp:205-299", "source/Point.cpp:385-418", "source/Line.cpp:613-704", "source/Line.cpp:1390-1451"]}
{"id": "C110", "title": "What is connected stays connected", "statement": "At every moment of a simulation without failures, MoorDyn_GetLineNodePos and MoorDyn_GetLineNodeVel of the end of a line give the position and velocity of the point or the rod end to which the input file attaches it; a line at a point is free to turn there, a line at a rod is clamped in the direction of the axis of the rod. A point fixed to a body is where the position and the rotation of the body put it and has the velocity of that place on the body; so is end A of a rod fixed or pinned to a body, and a fixed rod turns with the body. The ends of a rod are as far apart as the rod is long. Points on one body keep their distance. A fixed body stays where it is put, with velocity and acceleration zero, and so do the points on it, the anchors and the ends of lines there. This holds after every step and also inside a step, whatever the state is, the motions are that are given to MoorDyn_Step, and whatever the forces are.", "quantifier": "for every number of bodies, rods, points and lines of all kinds, every way to attach them that an input file can describe, every law of forces, every state, every sequence of calls of MoorDyn_Step with any motion and time step, every integrator; the first update establishes it from any memory", "why_tests_cant": "A test looks at a few systems; that no order of the updates of bodies, rods, points and lines leaves one of them behind is a statement about all systems and all executions.", "anchors": ["source/Time.cpp:39-150", "source/Body.cpp:168-190", "source/Body.cpp:252-318", "source/Body.cpp:388-473", "source/Rod.cpp:428-602", "source/Rod.cpp:886-894", "source/Point.cpp:205-277", "source/Line.cpp:658-730", "source/MoorDyn2.cpp:418-426", "source/MoorDyn2.cpp:612-760"]}
{"id": "C111", "title": "The forces that can be read are all those of one moment", "statement": "After every step the forces that MoorDyn reports of lines, points, rods and bodies (MoorDyn_GetLineNodeTen, MoorDyn_GetPointForce, MoorDyn_GetRodForce, MoorDyn_GetBodyForce and the output channels) belong to one another: they have all been computed from the places and velocities of one and the same moment of the simulation, at which everything was connected, a point and a rod with the forces of their lines at that moment, a body with those of its points and rods at that moment; the update at the end of the step changes none of them. What does not hold: of points, rods and bodies that cannot move no force is ever computed (of an anchor, zero is read; of fixed rods and bodies, memory that nobody has set); the inner nodes of a rod stay behind its ends until the forces are next computed; and the water at these nodes is taken where they were when the forces were computed before.", "quantifier": "for every number of bodies, rods, points and lines of all kinds, every way to attach them, every law of forces, every order of the objects, every sequence of calls with any motion and time step, every integrator", "why_tests_cant": "Whether a force is that of the present or of an earlier evaluation cannot be seen in its value; a test compares with a tolerance in which the delay of a time step disappears.", "anchors": ["source/Time.cpp:39-150", "source/Body.cpp:514-632", "source/Rod.cpp:543-602", "source/Rod.cpp:690-715", "source/Rod.cpp:866-1303", "source/Rod.cpp:1609-1625", "source/Rod.hpp:168", "source/Point.cpp:94", "source/Point.cpp:193-199", "source/Point.cpp:320-383", "source/Point.cpp:532-538", "source/Waves.cpp:715-726"]}
{"id": "C112", "title": "After a call everything is where it should be", "statement": "After MoorDyn_Step with a positive time step dt, with every integrator: each coupled point, rod and body is at x + dt*xd of the x and xd that were passed for it (for rods and bodies all six components), with the velocity xd; a pinned coupled one has the first three components from there and its rotation and angular velocity from the state; each free body, rod, point and inner node of a line is where the state of the integrator at the returned time says; fixed bodies have not moved, anchors are where the input file puts them, at rest; and what is attached is where it is attached. So what MoorDyn_GetPointPos, MoorDyn_GetBodyState, MoorDyn_GetRodNodePos of the ends of a rod, MoorDyn_GetLineNodePos and the output files show is the state of that moment and nothing older, for each object whatever the order in which objects are numbered. A rod without length is shown with the rotation one and no angular velocity. Not said here are the inner nodes of rods, which are older (C111).", "quantifier": "for every number of bodies, rods, points and lines of all kinds, every way to attach them, every law of forces, every sequence of calls with any motion and positive time step, every integrator", "why_tests_cant": "The loops over bodies, rods and points overwrite each other: an object that is put before what carries it, or left out for one kind, is wrong only in some numberings and only by the motion of one step, which tests with tolerances and single objects do not see.", "anchors": ["source/Time.cpp:39-89", "source/MoorDyn2.cpp:612-760", "source/Body.cpp:252-318", "source/Body.cpp:388-473", "source/Rod.cpp:428-602", "source/Point.cpp:205-277", "source/Line.cpp:658-704"]}
{"id": "C113", "title": "No force is lost or counted twice in systems with bodies and rods", "statement": "At every evaluation of a system of bodies, rods, points and lines, in any numbering and with any attachments: the forces with which bodies, and points and rods which are on no body, are left (to be accelerated if they are free, to be held by the calling program if they are coupled), together with the pull of the lines at all anchors and fixed rods, add up to the weight, buoyancy, drag, inertia of the water, pressure, contact with the bottom and applied forces of all lines, points, rods and bodies, less mass times acceleration of the nodes of the lines, and less the force which keeps the masses on turning bodies on their circles. The same holds for the moments about the origin, but for one thing: the bending moments of stiff lines at ends clamped to rods are missing, as a line never gives a moment to a rod. What a free body, rod or point is left with is its mass matrix times the acceleration that the integrator gets.", "quantifier": "for every number of bodies, rods, points and lines of all kinds, every way to attach them in which each end of a line is held once and each point or rod is on one body at most, every state, every sea, bottom and current, in all states in which the forces are numbers and the masses of the nodes can be inverted", "why_tests_cant": "A line end counted at two holders, a rod whose lines are left out when it is on a body, a moment taken about the wrong place or a force given to the wrong body changes the motion by what may look like other coefficients; only the balance of the whole system shows it, and tests compare single objects with recorded values.", "anchors": ["source/Time.cpp:91-150", "source/Body.cpp:475-632", "source/Rod.cpp:604-686", "source/Rod.cpp:823-1303", "source/Point.cpp:279-383", "source/Line.cpp:771-1180", "source/Line.hpp:686-706"]}
{"id": "C114", "title": "Time is kept in floating point numbers to one rounding per internal step", "statement": "With the arithmetic of double (or float) numbers, and not only with exact arithmetic: if dt is at most 2^53 internal time steps, MoorDyn_Step(dt) does return, after a number n of steps of exactly the internal time step and one last, positive step which is not longer; the steps add up to dt up to n roundings of dt, and the time of the simulation is then the old time plus dt up to one rounding for each step. It never goes back. If the internal time step is less than 2^-54 of dt the call never returns, and if it is less than 2^-54 of the time the clock stands still. The number of steps is not dt divided by the internal time step: a call of 1 s with internal steps of 0.1 s does eleven steps, the last of 1.4e-16 s.", "quantifier": "for every precision (53 digits, 24 digits, or any other), every dt and internal time step which are numbers of that precision (subnormal ones included), every time, every scheme step, which may fail", "why_tests_cant": "Whether t_target becomes exactly zero, and after how many steps, depends on roundings of one special pair of numbers in each run; tests use a few pairs, and a loop that never ends shows only as a program that hangs.", "anchors": ["source/MoorDyn2.cpp:620-626", "source/MoorDyn2.cpp:692-714", "source/MoorDyn2.cpp:228-239", "source/MoorDyn2.cpp:358-372", "source/Time.cpp:220", "source/Time.cpp:487", "source/Misc.hpp:83-95"]}
{"id": "C115", "title": "VTK files show the system as it is", "statement": "In a library built with VTK: MoorDyn_SaveLineVTK writes a point for each node where MoorDyn_GetLineNodePos has it, a cell for each segment between its two nodes, and under each name the quantity of that name node by node or segment by segment, in a file that other programs can read (one tuple for each point or cell). MoorDyn_SaveRodVTK writes the nodes of the rod and one cell through all of them, or a single point for a rod without length; MoorDyn_SavePointVTK the point. MoorDyn_SaveBodyVTK writes the shape of the body (three axes, or the model given to MoorDyn_UseBodyVTK) turned and moved as the body is, so that each vertex is where a point fixed to the body there would be. MoorDyn_SaveVTK has one block for each object: bodies, points, rods, lines. Success is returned if and only if the file was written; a model is replaced only if the new one could be read.", "quantifier": "every line, rod, point and body with any number of nodes, any state of them (quaternions of any length), any shape, any number of objects, any outcome of the writer and the readers of VTK, any file name", "why_tests_cant": "Files are looked at, at best, for a few states; whether a rotation is the right one for every attitude, whether the sizes of all arrays fit for every number of segments, and which block is which for every number of objects cannot be seen in pictures.", "anchors": ["source/Line.cpp:1453-1545", "source/Rod.cpp:1508-1567", "source/Point.cpp:420-475", "source/Body.cpp:695-783", "source/Body.cpp:882-952", "source/MoorDyn2.cpp:806-845", "source/IO.cpp:638-657", "source/Util/VTK_Util.hpp:48-65"]}
{"id": "C116", "title": "The MATLAB functions do what the functions of the library they are named after do", "statement": "Each MATLAB function MoorDynM_X calls MoorDyn_X once, with its inputs in order as the arguments that are read, with enough room for what is written, and returns what was written, in order; a failure of the library is an error in MATLAB, and a call with a wrong number of inputs or outputs does not reach the library. In particular MoorDynM_Save and MoorDynM_Load save and load the system under the name given, and a mass matrix has its rows where MoorDyn_GetBodyM has them.", "quantifier": "all 84 functions, all inputs, all results of the library, whatever the MATLAB interface makes of arrays of unexpected types", "why_tests_cant": "The functions can only be run inside MATLAB, and none of them has a test in the repository; that no input whatever makes a function work cannot be found by trying inputs.", "anchors": ["wrappers/matlab/moordyn_matlab.h:66-137", "wrappers/matlab/MoorDynM_Save.cpp:40-47", "wrappers/matlab/MoorDynM_Load.cpp:40-47", "wrappers/matlab/MoorDynM_Step.cpp:40-58", "wrappers/matlab/MoorDynM_GetBodyM.cpp:40-49"]}
{"id": "C117", "title": "A symmetric platform with its mooring stays symmetric", "statement": "Take a system of bodies, rods, points and lines that looks the same after a turn about a vertical axis, each object taking the place of its counterpart (a platform with three equal lines, with columns that are rods), with bottom and water having the same symmetry. If the start is symmetric and the motions given to MoorDyn_Step are symmetric, every later state is: counterparts are where the turn takes the others, with places, velocities, attitudes, and forces that are turned, and the fairlead tensions of counterparts are equal. A body that is its own counterpart stays on the axis and upright, moves only along the axis and turns only about it, and the force and the moment on it are vertical.", "quantifier": "for every number of bodies, rods, points and lines, every angle, every axis, every symmetric bottom and water, every explicit scheme and the implicit Euler scheme, every sequence of calls", "why_tests_cant": "A test can look at one symmetric layout for some steps and to some digits; that a platform does not pick up a list or a drift from the order in which its lines are given, in any layout, is a statement about all of them.", "anchors": ["source/Time.cpp:39-150", "source/Body.cpp:253-320", "source/Body.cpp:475-632", "source/Rod.cpp:604-690", "source/Rod.cpp:823-1303", "source/Point.cpp:205-383", "source/Line.cpp:853-1262"]}
{"id": "C118", "title": "The axes in which a round body is described do not matter", "statement": "The heading of the axes of its own in which a body is described is a matter of choice: if inertia, drag and added mass are the same in both horizontal directions of the body, then describing the points and rods on it and its centre of gravity in axes that are turned by any angle about the vertical of the body, and giving the initial and asked headings accordingly, changes nothing: all places, velocities, tensions and forces are the same at all times, and the rotation matrix of the body is that from the other axes.", "quantifier": "for every number of bodies, rods, points and lines, every angle for each body, at the same time every turn of the horizontal axes and every origin on the surface, every explicit scheme and the implicit Euler scheme, every sequence of calls", "why_tests_cant": "A test compares two descriptions of one body for some steps; equality for all bodies, angles, attitudes on the way and schemes is out of its reach.", "anchors": ["source/Body.cpp:90-125", "source/Body.cpp:253-320", "source/Body.cpp:537-632", "source/Misc.cpp:232-312"]}
{"id": "C119", "title": "A ship in head seas does not sway, roll or yaw", "statement": "Take a system of bodies, rods, points and lines whose port and starboard sides are mirror images (each object takes the place of its counterpart in a vertical plane, or is its own image), with bottom and water that are the same on both sides. If the start is symmetric, and the motions given to MoorDyn_Step are, every later state is: counterparts have mirrored places, velocities, attitudes and forces, angular velocities and moments are mirrored with the other sign, and the fairlead tensions of counterparts are equal. A body that is its own image stays in the plane: its centre and its velocity are in the plane, it turns only in the plane (pitch), its rotation matrix is that of a pitch, the force on it is in the plane and the moment is about the normal. Likewise any system whatever, mirrored with its sea, moves as the image of the original.", "quantifier": "for every number of bodies, rods, points and lines, every offset of the plane, every symmetric bottom and water, every scheme but that of Anderson, every sequence of calls", "why_tests_cant": "A cross product in the wrong order, a handed rotation or a sign in one of the moments breaks the symmetry in some attitudes only, and a test with one symmetric layout sees at most a small sway among roundings.", "anchors": ["source/Time.cpp:39-150", "source/Time.cpp:1030-1230", "source/Body.cpp:253-320", "source/Body.cpp:475-632", "source/Rod.cpp:252-330", "source/Rod.cpp:604-690", "source/Rod.cpp:823-1303", "source/Point.cpp:205-383", "source/Line.cpp:853-1262"]}
{"id": "C120", "title": "Null arrays are refused, and not needed without coupled objects", "statement": "MoorDyn_Init and MoorDyn_Step of a system with coupled objects report an error, and leave the system as it is, when the pointer to the positions, the velocities or the forces is null; MoorDyn_Step also when the pointer to the time or to the time step is. A system without coupled objects can be given null pointers to the arrays: the calls do what they do with any arrays. With arrays that have the entries of the coupled objects a call has defined behaviour: it writes the forces after the step into the first entries and leaves the others, and does not touch the array if the step fails.", "quantifier": "for every set of coupled bodies, rods and points, all pointers, arrays of any length, every time step and every behaviour of the step itself", "why_tests_cant": "The effect of following a null pointer is undefined: a test that crashes says nothing about other systems, and one that does not crash says nothing at all.", "anchors": ["source/MoorDyn2.cpp:406-500", "source/MoorDyn2.cpp:606-747", "source/MoorDyn2.cpp:2400-2424", "source/MoorDyn2.hpp:144-154", "source/MoorDyn2.hpp:486-532"]}
{"id": "C121", "title": "Rows of the section of failures mean what the documentation says", "statement": "A row of the section FAILURE names, by numbers counted from one, a point or (R, number, A or B) the end of a rod, one or more lines with commas between them, a time and a tension, either of which may be zero for none. MoorDyn_Create accepts it exactly if the point or rod and the lines exist and the lines are attached there. The failure is due at the time or when the tension is reached, whichever comes first; a row that says the same as another is ignored.", "quantifier": "for every row, every number of points, rods and lines, and every system with its attachments at any time", "why_tests_cant": "The rows are text of any length, and what two rows do together depends on the system and on the times of the steps.", "anchors": ["source/MoorDyn2.cpp:1249-1345", "source/MoorDyn2.cpp:716-738", "source/MoorDyn2.cpp:2204-2276", "docs/inputs.rst:486-506"]}
{"id": "C122", "title": "Rows of the list of points mean what the documentation says", "statement": "A row of the list of points gives number, attachment, the three coordinates, mass, volume, drag area and coefficient of added mass of a point, in this order; in the older format the three components of a steady force stand between volume and drag area. MoorDyn_Create gives the point these properties and, without the columns of the force, no force. Rows with fewer than nine entries or with an unknown attachment are an error. Words behind the columns, such as a remark, do not matter, as in the other sections.", "quantifier": "for every row with any entries and any number of words behind them, and every number of bodies", "why_tests_cant": "The rows are text of any length; a test reads some rows, and what further words do depends on how many there are.", "anchors": ["source/MoorDyn2.cpp:987-1097", "source/Point.cpp:57-98", "docs/inputs.rst:73-99", "docs/inputs.rst:412-439"]}
{"id": "C123", "title": "Rows of the list of lines mean what the documentation says", "statement": "A row of the list of lines gives number, type, the two ends, unstretched length, number of segments and outputs of a line, in this order; words behind them do not matter. MoorDyn_Create gives the line the type of that name, attaches its ends to the points or rod ends of these numbers, counted from one, and gives it this length and number of segments. A row is an error if it has fewer than seven entries, if there is no such type, point or rod, if the length is not a positive number or if there is not at least one segment. In the older format, with the heading LINE PROPERTIES, length and number of segments stand before the ends.", "quantifier": "for every row with any entries and any number of words behind them, all names of types and every number of points and rods", "why_tests_cant": "The rows are text of any length, and whether a word in a wrong column is refused depends on how many points and rods there are.", "anchors": ["source/MoorDyn2.cpp:1115-1243", "docs/inputs.rst:100-125", "docs/inputs.rst:440-485"]}
{"id": "C124", "title": "Rows of the list of rods mean what the documentation says", "statement": "A row of the list of rods gives number, class, attachment, the coordinates of end A and of end B, number of segments and outputs of a rod, in this order; words behind them do not matter. MoorDyn_Create gives the rod the class of that name and these properties. A row with fewer than eleven entries, or with a class, a body or a word for the attachment that does not exist, or with a negative number of segments, is an error.", "quantifier": "for every row with any entries and any number of words behind them, all names of classes and every number of bodies", "why_tests_cant": "The rows are text of any length, and whether a row names existing objects depends on the rest of the file.", "anchors": ["source/MoorDyn2.cpp:1949-2092", "docs/inputs.rst:370-396"]}
{"id": "C125", "title": "Rows of the list of bodies mean what the documentation says", "statement": "A row of the list of bodies gives number, attachment, place, angles in degrees, mass, centre of gravity, inertia, volume, drag areas and added mass of a body, in this order; words behind them do not matter. Centre of gravity, inertia and added mass are one number or three with bars between them, drag areas one, two, three or six. MoorDyn_Create gives the body these properties. A row with fewer than fourteen entries, with another number of numbers, or with spaces between numbers and bars is an error.", "quantifier": "for every row with any numbers in decimal notation and any number of words behind them", "why_tests_cant": "The rows are text of any length and there are many combinations of numbers of numbers; a test reads a few of them.", "anchors": ["source/MoorDyn2.cpp:1799-1943", "source/MoorDyn2.cpp:958-975", "docs/inputs.rst:333-368"]}
