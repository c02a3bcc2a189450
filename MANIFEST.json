{
 "claims": [
  {
   "property": "C01",
   "status": "proved",
   "theorems": [
    "MD.IO.C01_layout",
    "MD.IO.C01_roundtrip",
    "MD.IO.C01_own_file_rejected",
    "MD.IO.C01_save_load_system",
    "MD.IO.C01_not_portable"
   ],
   "note": "Byte-level model of Save/Load. Round trip for every word list shorter than 2^61 and every accepted version, both byte orders; also end to end for every storable system. Recorded findings: libraries of version x.0/x.1 (x>=2) or older than 2 reject their own files; the word count is stored in native byte order."
  },
  {
   "property": "C02",
   "status": "partial",
   "theorems": [
    "MD.IO.C02_versions",
    "MD.IO.C02_accept_iff",
    "MD.IO.C02_exact_length_partial",
    "MD.IO.C02_wrapped_length",
    "MD.IO.C02_reject_keeps_state",
    "MD.IO.C02_mismatch_overwrites",
    "MD.IO.C02_short_payload_ub"
   ],
   "note": "Exact characterisation of accepted files for every byte string. The statement is false as given: the declared length is only compared modulo 2^61 (witness), a well formed file of a bigger system is detected after overwriting, and of a smaller one reads out of the buffer (witnesses)."
  },
  {
   "property": "C03",
   "status": "partial",
   "theorems": [
    "MD.IO.C03_normal_roundtrip_partial",
    "MD.IO.C03_zero_roundtrip",
    "MD.IO.C03_subnormal_lost",
    "MD.IO.C03_all_finite_false",
    "MD.IO.C03_infinity_hangs"
   ],
   "note": "Proved for all normal doubles and zero (value and bit pattern; the sign of zero and NaN are not modelled). False for subnormals: every subnormal below 2^-1023 is read back as a huge negative number; packing an infinity never terminates."
  },
  {
   "property": "C04",
   "status": "proved",
   "theorems": [
    "MD.IO.C04_real_law",
    "MD.IO.C04_line",
    "MD.IO.C04_rod",
    "MD.IO.C04_point",
    "MD.IO.C04_body",
    "MD.IO.C04_state",
    "MD.IO.C04_integrator",
    "MD.IO.C04_system"
   ],
   "note": "For every system whose numbers are zero or normal doubles and whose vectors have fewer than 2^32 elements, with arbitrary trailing words."
  },
  {
   "property": "C05",
   "status": "partial",
   "theorems": [
    "MD.IO.C05_stored_queries_partial",
    "MD.IO.C05_unstretched_length_lost",
    "MD.IO.C05_as_stated_false"
   ],
   "note": "Holds for every stored quantity of a line. False for the unstretched length and its rate, which are not stored (witness)."
  },
  {
   "property": "C06",
   "status": "proved",
   "theorems": [
    "MD.Time.C06_step_integrates_dt",
    "MD.Time.C06_nonpositive_dt",
    "MD.Time.C06_fuel_irrelevant",
    "MD.Time.C06_nonpositive_limit_hangs",
    "MD.Time.C06_clock"
   ],
   "note": "Loop of MoorDyn_Step over any Archimedean ordered field, any scheme step (which may fail). A non-positive internal step makes the call hang (proved)."
  },
  {
   "property": "C07",
   "status": "partial",
   "theorems": [
    "MD.Time.C07_time_advance_partial",
    "MD.Time.C07_total_time_partial",
    "MD.Time.C07_wilson_advance",
    "MD.Time.C07_wilson_false"
   ],
   "note": "Holds for every scheme but wilsonN, whose clock runs 2*1.37-1 = 1.74 times too fast (sign error in Time.cpp), proved."
  },
  {
   "property": "C08",
   "status": "partial",
   "theorems": [
    "MD.Time.C08_steady_velocity_partial",
    "MD.Time.C08_from_the_start",
    "MD.Time.C08_startup_deficit",
    "MD.Time.C08_auxOk_points_lines",
    "MD.Time.C08_newmark_startup",
    "MD.Time.C08_as_stated_false",
    "MD.Time.C08_anderson_early_stop_false",
    "MD.Time.C08_rigid_ab_false"
   ],
   "note": "Exact for every scheme once the stored derivative is that of the motion; from the first step for Euler, RK2, RK4, AB and implicit Euler. False at start-up for Heun (half step), Newmark (no displacement) and Anderson (early stop). False for rods and bodies with ab2, ab3 and ab4: the difference of their states is computed as a sum, so that they move 11/3, 20/3 and 551/45 times as far as their velocity says."
  },
  {
   "property": "C09",
   "status": "partial",
   "theorems": [
    "MD.Time.C09_rk2_forcing",
    "MD.Time.C09_rk4_forcing",
    "MD.Time.C09_rk2_linear",
    "MD.Time.C09_rk4_linear",
    "MD.Time.C09_heun_lags",
    "MD.Time.C09_heun_first_order",
    "MD.Time.C09_ab_two_point",
    "MD.Time.C09_ab_first_order"
   ],
   "note": "Proved for RK2 and RK4. False for Heun (uses the previous interval) and for AB2/3/4 (the derivative shift overwrites the history), both proved to have a first order error (AB: for points and nodes; rods and bodies are worse, C08_rigid_ab_false)."
  },
  {
   "property": "C10",
   "status": "partial",
   "theorems": [
    "MD.Time.C10_equilibrium_partial",
    "MD.Time.C10_auxOk_points_lines",
    "MD.Time.C10_rigid_newmark_false",
    "MD.Time.C10_stationary_partial",
    "MD.Time.C10_stationary_rigid_false",
    "MD.Rot.C10_stationary_turns_false"
   ],
   "note": "Proved for points and lines with every scheme and with the stationary solver of the initial conditions, and for any object with the schemes that only use linear operations. False for rods and bodies with acaN. False for rods and bodies with the stationary solver, the default: MakeStationary takes the vanishing angular acceleration for angles, whose quaternion is the identity and not zero, and adds it to the orientation, which turns towards the axes."
  },
  {
   "property": "C11",
   "status": "partial",
   "theorems": [
    "MD.Motion.C11_derivative_age_partial",
    "MD.Motion.C11_others_every_step",
    "MD.Scheme.C11_lab_false"
   ],
   "note": "Age bound for every sequence of steps with the local Euler scheme. False for the documented local Adams-Bashforth schemes LAB2 to LAB4, which are the ordinary ones."
  },
  {
   "property": "C12",
   "status": "partial",
   "theorems": [
    "MD.Layout.C12_count",
    "MD.Layout.C12_entries_read",
    "MD.Layout.C12_reads_match_partial",
    "MD.Layout.C12_pinned_false",
    "MD.Layout.C12_entries_written"
   ],
   "note": "The number of entries read and written equals NCoupledDOF when there is no coupled pinned body. False with CPLDPIN bodies: six are counted and three used (witness)."
  },
  {
   "property": "C13",
   "status": "proved",
   "theorems": [
    "MD.Layout.C13_input_block",
    "MD.Layout.C13_output_block",
    "MD.Layout.C13_pinned_uninitialised"
   ],
   "note": "Block of every coupled object for every model; also which entries of the output are never written for pinned bodies."
  },
  {
   "property": "C14",
   "status": "partial",
   "theorems": [
    "MD.Motion.C14_coupled_motion_partial",
    "MD.Motion.C14_wilson_end",
    "MD.Motion.C14_wilson_overshoots_false"
   ],
   "note": "Every scheme but Wilson, every substep, every behaviour of the rest of the system. With Wilson the point is observed beyond the end of the step (witness)."
  },
  {
   "property": "C15",
   "status": "proved",
   "theorems": [
    "MD.Motion.C15_one_step",
    "MD.Motion.C15_paid_out_length",
    "MD.Motion.C15_constant_rate"
   ],
   "note": "Every selectable scheme, any sequence of rates and durations, any behaviour of the rest of the system."
  },
  {
   "property": "C16",
   "status": "proved",
   "theorems": [
    "MD.Attach.C16_read_lines",
    "MD.Attach.C16_detach",
    "MD.Attach.C16_detach_error",
    "MD.Attach.C16_detach_succeeds",
    "MD.Attach.C16_always_consistent"
   ],
   "note": "Invariant for every model read and every sequence of detachments, failed ones included."
  },
  {
   "property": "C17",
   "status": "partial",
   "theorems": [
    "MD.Attach.C17_at_most_once_partial",
    "MD.Attach.C17_actual_trigger",
    "MD.Attach.C17_as_stated_false"
   ],
   "note": "At most once is proved for every sequence of steps. The triggering time is false: the comparison is inverted, so failures fire at the end of the first step if their time has NOT been reached and never otherwise (characterised and witness)."
  },
  {
   "property": "C18",
   "status": "partial",
   "theorems": [
    "MD.Registry.C18_add",
    "MD.Registry.C18_add_all",
    "MD.Registry.C18_all_computed",
    "MD.Registry.C18_remove_unknown",
    "MD.Registry.C18_remove_first_partial",
    "MD.Registry.C18_remove_actual",
    "MD.Registry.C18_remove_wrong_false",
    "MD.Registry.C18_remove_undefined_false",
    "MD.Registry.C18_remove_defined"
   ],
   "note": "Adding is proved for any sequence. Removing drops the k-th state of stage k instead of the state of the object: false (witness), and out of range iff there are more stages than objects."
  },
  {
   "property": "C19",
   "status": "partial",
   "theorems": [
    "MD.Attach.C19_new_point_not_simulated_false",
    "MD.Attach.C19_release_state_partial"
   ],
   "note": "The position, velocity and attachments of the created point are proved. That it is simulated is false for every failure: it is registered neither in the integrator nor in the wave kinematics."
  },
  {
   "property": "C20",
   "status": "partial",
   "theorems": [
    "MD.CFL.C20_roundtrip",
    "MD.CFL.C20_init_partial",
    "MD.CFL.C20_cfl_ignored",
    "MD.CFL.C20_cfl_ignored_false",
    "MD.CFL.C20_set_roundtrip"
   ],
   "note": "dt -> CFL -> dt and the bound of the time step by the requested dtM are proved for every tree of objects. When dtM is given the requested CFL is ignored (characterised and witness), against the documentation."
  },
  {
   "property": "C21",
   "status": "partial",
   "theorems": [
    "MD.Interp.C21_monotone",
    "MD.Interp.C21_scalar",
    "MD.Interp.C21_tabulated",
    "MD.Interp.C21_between",
    "MD.Interp.C21_vector_partial",
    "MD.Interp.C21_vector_one_datum_false",
    "MD.Interp.C21_vector_unsorted_false",
    "MD.Interp.C21_inconsistent_table"
   ],
   "note": "Scalar version proved in full; vector version for at least two data and ascending evaluation points. With one datum only the first output is written, and unsorted evaluation points give wrong values (witnesses)."
  },
  {
   "property": "C22",
   "status": "partial",
   "theorems": [
    "MD.Seafloor.C22_depth_partial",
    "MD.Seafloor.C22_bounds_partial",
    "MD.Seafloor.C22_grid_points_partial",
    "MD.Seafloor.C22_statistics_partial",
    "MD.Seafloor.C22_incomplete_false",
    "MD.Seafloor.C22_repeated_false"
   ],
   "note": "Proved for files with exactly one row for each grid point, in any order. Files with missing or repeated rows are accepted and give other values (witnesses)."
  },
  {
   "property": "C23",
   "status": "partial",
   "theorems": [
    "MD.Waves.C23_stretch",
    "MD.Waves.C23_in_range",
    "MD.Waves.C23_periodic",
    "MD.Waves.C23_values_partial",
    "MD.Waves.C23_continuity_false"
   ],
   "note": "In range and periodic for every grid. In the last interval of the record the first sample is used alone, so the kinematics jump at the last sample (characterised and witness)."
  },
  {
   "property": "C24",
   "status": "proved",
   "theorems": [
    "MD.Waves.C24_order",
    "MD.Waves.C24_rejected",
    "MD.Waves.C24_rejected_modifies",
    "MD.Waves.C24_c_functions",
    "MD.Waves.C24_c_errors"
   ],
   "note": "Order for every system, also through the C functions with their flat arrays; a rejected input leaves the first nodes modified. MoorDyn_ExternalWaveKinSet has no try/catch: an exception of the C++ method would leave the C function."
  },
  {
   "property": "C25",
   "status": "partial",
   "theorems": [
    "MD.Waves.C25_point",
    "MD.Waves.C25_node",
    "MD.Waves.C25_still",
    "MD.Waves.C25_external",
    "MD.Waves.C25_external_query_false",
    "MD.Waves.C25_unified_4d_partial",
    "MD.Waves.C25_unified_steady_partial",
    "MD.Waves.C25_unified_dynamic_partial",
    "MD.Waves.C25_unified_stretched_false"
   ],
   "note": "Proved for separate providers, for external waves and for queries. With merged grids (default) the current is evaluated at the stretched depth, so the sum is false (witness). The point query ignores external waves (witness)."
  },
  {
   "property": "C26",
   "status": "partial",
   "theorems": [
    "MD.Waves.C26_acceleration",
    "MD.Waves.C26_returned",
    "MD.Waves.C26_surface_partial",
    "MD.Waves.C26_bed_partial",
    "MD.Waves.C26_divergence_free_partial",
    "MD.Waves.C26_reversal",
    "MD.Waves.C26_negative_deep_false",
    "MD.Waves.C26_stretching_false"
   ],
   "note": "Proved for any sum of components as functions of the stretched coordinate. False at a fixed point, because the stretching moves with the surface, and for deep water components of negative wave number. At the bed in deep water only the bound e^-89.4 holds."
  },
  {
   "property": "C27",
   "status": "proved",
   "theorems": [
    "MD.Mat.C27_energy",
    "MD.Mat.C27_energy_point",
    "MD.Mat.C27_momentum",
    "MD.Mat.C27_symmetric",
    "MD.Mat.C27_compose",
    "MD.Mat.C27_back",
    "MD.Mat.C27_compose_point",
    "MD.Mat.C27_steiner",
    "MD.Mat.C27_energy_needs_symmetry"
   ],
   "note": "Over any commutative ring; symmetric matrices, as the property says (shown needed by a witness)."
  },
  {
   "property": "C28",
   "status": "proved",
   "theorems": [
    "MD.Mat.C28_rotation",
    "MD.Mat.C28_dot",
    "MD.Mat.C28_triple",
    "MD.Mat.C28_sense",
    "MD.Mat.C28_add",
    "MD.Mat.C28_energy3",
    "MD.Mat.C28_energy6",
    "MD.Mat.C28_symmetric",
    "MD.Mat.C28_compose",
    "MD.Mat.C28_kinematics"
   ],
   "note": "All angles and all conventions, over the reals."
  },
  {
   "property": "C29",
   "status": "partial",
   "theorems": [
    "MD.Mooring.C29_tension_damping_cancel",
    "MD.Mooring.C29_tension_damping_moment",
    "MD.Mooring.C29_bending_cancel",
    "MD.Mooring.C29_bending_moment",
    "MD.Mooring.C29_bending_power",
    "MD.Mooring.C29_net_force",
    "MD.Mooring.C29_net_force_pressure",
    "MD.Mooring.C29_mass",
    "MD.Mooring.C29_weight",
    "MD.Mooring.C29_internal_pressure_false"
   ],
   "note": "Proved for every number of segments and every positions and velocities, moments and bending power included. With internal pressure enabled (MoorDyn_SetLinePressBend) the line gets a net force (witness)."
  },
  {
   "property": "C30",
   "status": "partial",
   "theorems": [
    "MD.Mooring.C30_slack",
    "MD.Mooring.C30_constant",
    "MD.Mooring.C30_tabulated",
    "MD.Mooring.C30_never_pushes",
    "MD.Mooring.C30_increasing",
    "MD.Mooring.C30_increasing_table",
    "MD.Mooring.C30_reported",
    "MD.Mooring.C30_reported_static",
    "MD.Mooring.C30_damping_pushes",
    "MD.Mooring.C30_output_channel_false"
   ],
   "note": "Segment tension and API tensions proved. The tension channels of the output files are the norm of the net end force instead (witness), and damping can push and is reported as positive tension (witness)."
  },
  {
   "property": "C31",
   "status": "partial",
   "theorems": [
    "MD.Mooring.C31_max_partial",
    "MD.Mooring.C31_fairlead_false"
   ],
   "note": "All nodes but the fairlead, which the loop does not visit (witness: MaxTen below FairTen)."
  },
  {
   "property": "C32",
   "status": "partial",
   "theorems": [
    "MD.Mooring.C32_line_drag",
    "MD.Mooring.C32_constant_damping",
    "MD.Mooring.C32_tabulated_damping_partial",
    "MD.Mooring.C32_mirrored_table_false",
    "MD.Mooring.C32_table_at_rest_false",
    "MD.Rods.C32_rod_drag",
    "MD.Bodies.C32_point_drag",
    "MD.Bodies.C32_point_drag_power",
    "MD.Bodies.C32_body_drag",
    "MD.Bodies.C32_body_drag_axis",
    "MD.Bodies.C32_body_drag_spin"
   ],
   "note": "Line, rod, point and body drag and constant damping proved. Tables without negative rates give energy in compression (witness), and any table gives NaN for a segment of constant length (for every line at rest)."
  },
  {
   "property": "C33",
   "status": "partial",
   "theorems": [
    "MD.Mooring.C33_no_contact",
    "MD.Mooring.C33_vanishes_without_motion",
    "MD.Mooring.C33_opposes_motion",
    "MD.Mooring.C33_bounded",
    "MD.Mooring.C33_bounded_partial",
    "MD.Mooring.C33_kinetic_limit_false",
    "MD.Mooring.C33_normal_force_partial",
    "MD.Mooring.C33_suction_false",
    "MD.Mooring.C33_reported_force"
   ],
   "note": "Direction, vanishing and static bound proved; kinetic bound for a ratio up to one (default), false above; the seabed pulls nodes that leave it fast (witness)."
  },
  {
   "property": "C34",
   "status": "partial",
   "theorems": [
    "MD.Mooring.C34_in_unit_interval",
    "MD.Mooring.C34_below",
    "MD.Mooring.C34_above",
    "MD.Mooring.C34_across",
    "MD.Mooring.C34_across_axis",
    "MD.Mooring.C34_symmetric_partial",
    "MD.Mooring.C34_waves",
    "MD.Mooring.C34_waves_across",
    "MD.Mooring.C34_end_at_surface_false",
    "MD.Mooring.C34_slope_false"
   ],
   "note": "All proved but the symmetry with an end exactly at the surface, where a dry vertical segment is taken as submerged, and the comparison with the local surface: in waves the mean of the elevations at both ends is used (C34_slope_false)."
  },
  {
   "property": "C35",
   "status": "proved",
   "theorems": [
    "MD.Rods.C35_archimedes",
    "MD.Rods.C35_centre_of_buoyancy",
    "MD.Rods.C35_zero_length"
   ],
   "note": "Every proper rod with some segments whose cylinder is below the surface; force exact for every orientation, centre of buoyancy for rods exactly vertical or at least 1e-6 away from it."
  },
  {
   "property": "C36",
   "status": "partial",
   "theorems": [
    "MD.Rods.C36_inertia_partial",
    "MD.Rods.C36_lines",
    "MD.Rods.C36_energy_partial",
    "MD.Rods.C36_overflow_false",
    "MD.Rods.C36_divisor_zero"
   ],
   "note": "Up to 26754 segments the mass matrix is that of the cylinder. 6*N*N overflows from 26755 segments on (every rod with that number), and is zero for 65536."
  },
  {
   "property": "C37",
   "status": "partial",
   "theorems": [
    "MD.Rods.C37_wetted_partial",
    "MD.Rods.C37_dry",
    "MD.Rods.C37_upside_down_false",
    "MD.Rods.C37_touching_false",
    "MD.Rods.C37_fraction_partial",
    "MD.Rods.C37_fraction_false",
    "MD.Rods.C37_sub_channel_false"
   ],
   "note": "Proved with end A submerged. With end B down every node counts as submerged; with end B at the surface none does; the fraction of thin nearly vertical rods is unbounded; the output channel is not the submerged fraction."
  },
  {
   "property": "C38",
   "status": "partial",
   "theorems": [
    "MD.Rods.C38_state_ends",
    "MD.Rods.C38_start_partial",
    "MD.Rods.C38_start_false",
    "MD.Rods.C38_example"
   ],
   "note": "End B is right once the state has been set. After initialisation it is not, for every rod not aligned with the origin (the quaternion is built with the absolute position of end B)."
  },
  {
   "property": "C39",
   "status": "partial",
   "theorems": [
    "MD.Catenary.C39_terminates",
    "MD.Catenary.C39_positive_tension",
    "MD.Catenary.C39_nonconvergence_never_reported",
    "MD.Catenary.C39_jacobian",
    "MD.Catenary.C39_regular",
    "MD.Catenary.C39_first_node",
    "MD.Catenary.C39_last_node",
    "MD.Catenary.C39_equilibrium",
    "MD.Catenary.C39_weight",
    "MD.Catenary.C39_above_seabed",
    "MD.Catenary.C39_ends_partial",
    "MD.Catenary.C39_reversed",
    "MD.Catenary.C39_reversed_tensions",
    "MD.Catenary.C39_suspended_succeeds",
    "MD.Catenary.C39_ends_false",
    "MD.Catenary.C39_line_in_plane",
    "MD.Catenary.C39_line_complete",
    "MD.Catenary.C39_line_above_seabed",
    "MD.Catenary.C39_too_long",
    "MD.Catenary.C39_too_long_fails",
    "MD.Catenary.C39_guess"
   ],
   "note": "Termination, positive tension, anchor end, equilibrium of every element, weight balance, true Jacobian: proved for all inputs. False: success does not bound the error at the fairlead, because the convergence test looks at increments damped to zero at the last iteration (with 1/Tol whole the solver never reports non convergence; witness far off). The error is bounded by the sensitivities and the damping factor. With the fairlead below the anchor the end tensions are exchanged."
  },
  {
   "property": "C40",
   "status": "proved",
   "theorems": [
    "MD.Bodies.C40_net_force",
    "MD.Bodies.C40_mass",
    "MD.Bodies.C40_order",
    "MD.Bodies.C40_newton",
    "MD.Bodies.C40_network"
   ],
   "note": "Every list of line ends. Network theorem: in every system of points and lines the internal forces cancel (lines without internal pressure, see C29)."
  },
  {
   "property": "C41",
   "status": "proved",
   "theorems": [
    "MD.Bodies.C41_point_velocity",
    "MD.Bodies.C41_distance",
    "MD.Bodies.C41_distance_rate",
    "MD.Bodies.C41_velocity_is_rate",
    "MD.Bodies.C41_rod_position",
    "MD.Bodies.C41_rod_velocity",
    "MD.Bodies.C41_point_power",
    "MD.Bodies.C41_rod_power",
    "MD.Bodies.C41_point_energy",
    "MD.Bodies.C41_power",
    "MD.Bodies.C41_pinned_rod"
   ],
   "note": "Every body, orientation and list of attachments. Work equivalence of the resultant is stated without the centripetal terms, which are inertia (see C67); the direction of a fixed rod exactly opposite to its initial one is left out (Eigen picks a half turn by a singular value decomposition)."
  },
  {
   "property": "C42",
   "status": "partial",
   "theorems": [
    "MD.Rot.C42_orthogonal",
    "MD.Rot.C42_norm_constant",
    "MD.Rot.C42_angular_velocity",
    "MD.Rot.C42_euler_step",
    "MD.Rot.C42_norm_irrelevant",
    "MD.Rot.C42_rod",
    "MD.Rot.C42_zero_length_rod_false"
   ],
   "note": "Proved for bodies and for rods with segments; false for zero-length free rods, whose rate is the identity quaternion instead of zero."
  },
  {
   "property": "C43",
   "status": "partial",
   "theorems": [
    "MD.Api.C43_throw",
    "MD.Api.C43_guarded_partial",
    "MD.Api.C43_codes_distinct",
    "MD.Api.C43_guarded_false",
    "MD.Api.C43_create",
    "MD.Api.C43_create_false",
    "MD.Api.C43_step_integrator",
    "MD.Api.C43_step_output",
    "MD.Api.C43_step_ok",
    "MD.Api.C43_step_partial",
    "MD.Api.C43_init_ok",
    "MD.Api.C43_init_escapes",
    "MD.Api.C43_log_file_false"
   ],
   "note": "Guarded functions report every handled exception with its documented code. False: NON_IMPLEMENTED and every exception that is not of the library pass the handlers; MoorDyn_Init lets out the exception of any free point below the seabed, MoorDyn_SetLogFile that of a file that cannot be opened. What the library does inside is a parameter."
  },
  {
   "property": "C44",
   "status": "partial",
   "theorems": [
    "MD.Api.C44_object",
    "MD.Api.C44_object_inj",
    "MD.Api.C44_attached",
    "MD.Api.C44_node",
    "MD.Api.C44_node_tension",
    "MD.Api.C44_zero_segments_false",
    "MD.Api.C44_legacy_fairten",
    "MD.Api.C44_legacy_fairten_false"
   ],
   "note": "Every index of every query. False for the tension of lines with zero segments, which the input accepts (read outside the arrays), and for the legacy GetFairTen, which returns an uninitialised value exactly for the lines that do not exist."
  },
  {
   "property": "C45",
   "status": "partial",
   "theorems": [
    "MD.Api.C45_codes",
    "MD.Api.C45_failed_init",
    "MD.Api.C45_never_dangling",
    "MD.Api.C45_instances_partial",
    "MD.Api.C45_at_most_one_partial",
    "MD.Api.C45_at_most_one_false",
    "MD.Api.C45_leak_is_permanent"
   ],
   "note": "Codes refine the specification for every sequence of calls. \"At most one instance\" is false: each initialisation that fails after creating the system leaves it alive for good; exact count proved."
  },
  {
   "property": "C46",
   "status": "partial",
   "theorems": [
    "MD.Output.C46_row_iff",
    "MD.Output.C46_every_step",
    "MD.Output.C46_count",
    "MD.Output.C46_at_most",
    "MD.Output.C46_ordered",
    "MD.Output.C46_every_row",
    "MD.Output.C46_start_false",
    "MD.Output.C46_null_interval_false"
   ],
   "note": "Every sequence of steps and every interval, real arithmetic (the floating rounding of the quotient is not modelled). False for the initial time: with an output interval its row is never written. The documentation has a null interval stand for dtM; the code writes one row for each call (C46_null_interval_false)."
  },
  {
   "property": "C47",
   "status": "partial",
   "theorems": [
    "MD.Output.C47_line",
    "MD.Output.C47_line_length",
    "MD.Output.C47_line_flags_false",
    "MD.Output.C47_line_flags_partial",
    "MD.Output.C47_rod",
    "MD.Output.C47_rod_flags_false",
    "MD.Output.C47_body_partial",
    "MD.Output.C47_body_false"
   ],
   "note": "Every set of flags and number of segments: titles, units and values are those of the same columns in the same order, each quantity asked for exactly once. Not so for the existence of the files: flags K and b (lines), f (rods) alone make no file, other documented flags of rods give only the time, and files of coupled and fixed bodies have no titles."
  },
  {
   "property": "C48",
   "status": "partial",
   "theorems": [
    "MD.Reader.C48_abscissas_partial",
    "MD.Reader.C48_accepted_partial",
    "MD.Reader.C48_malformed",
    "MD.Reader.C48_missing",
    "MD.Reader.C48_ordinates_false",
    "MD.Reader.C48_newline_false",
    "MD.Reader.C48_constant",
    "MD.Reader.C48_file_name_false",
    "MD.Reader.C48_number",
    "MD.Text.C48_written"
   ],
   "note": "Every file. Abscissas and constants are right, malformed rows are reported. False: the ordinates are copies of the abscissas, every file whose last line ends in a newline is rejected, and file names beginning with a digit, inf or nan are taken for constants. Decimal conversion is modelled with exact rationals."
  },
  {
   "property": "C49",
   "status": "partial",
   "theorems": [
    "MD.Reader.C49_one_two_partial",
    "MD.Reader.C49_three_six_partial",
    "MD.Reader.C49_surge_false",
    "MD.Reader.C49_rejected",
    "MD.Reader.C49_others"
   ],
   "note": "One and two entries are right, other counts than 1, 2, 3, 6 are rejected. False: with three or six entries the first one is lost (surge area undefined)."
  },
  {
   "property": "C50",
   "status": "partial",
   "theorems": [
    "MD.Reader.C50_contiguous_partial",
    "MD.Reader.C50_disjoint",
    "MD.Reader.C50_zero_segments_false",
    "MD.Reader.C50_failure_false"
   ],
   "note": "Every list of objects in which no line has zero segments, before any failure. False otherwise: a line of zero segments takes states from the objects before it, and the point created by a failure gets an index 6 too large."
  },
  {
   "property": "C51",
   "status": "partial",
   "theorems": [
    "MD.Reader.C51_section",
    "MD.Reader.C51_terminated_partial",
    "MD.Reader.C51_last_line_partial",
    "MD.Reader.C51_section_iff",
    "MD.Reader.C51_options_false",
    "MD.Reader.C51_header_false"
   ],
   "note": "Every list of lines. Holds for files in which every section is closed by a header line; exact condition per section; false for files ending within the options or within the two title lines of a section."
  },
  {
   "property": "C52",
   "status": "partial",
   "theorems": [
    "MD.Text.C52_split_words",
    "MD.Text.C52_split_unique",
    "MD.Text.C52_tokens",
    "MD.Text.C52_nothing_lost",
    "MD.Text.C52_split_join",
    "MD.Text.C52_join_split",
    "MD.Text.C52_tabs_false",
    "MD.Text.C52_mixed_false",
    "MD.Text.C52_blank_partial",
    "MD.Text.C52_rtrim",
    "MD.Text.C52_decompose_concat",
    "MD.Text.C52_decompose_word",
    "MD.Text.C52_characters",
    "MD.Text.C52_case"
   ],
   "note": "Every string and separator. Blanks are spaces only: tabs do not separate words of input sections, and lines of bathymetry mixing tabs and spaces keep the tabs."
  },
  {
   "property": "C53",
   "status": "proved",
   "theorems": [
    "MD.Log.C53_terminal",
    "MD.Log.C53_levels",
    "MD.Log.C53_file",
    "MD.Log.C53_writeLog"
   ],
   "note": "For every sequence of calls that set the verbosity, the file or its level, and every sequence of messages: a message is on the terminal, or in the file, exactly when its level is at least the threshold last set. Buffering and failures of the file system are not modelled."
  },
  {
   "property": "C54",
   "status": "partial",
   "theorems": [
    "MD.Mat.C54_false",
    "MD.Mat.C54_rows_partial",
    "MD.Mat.C54_inertia_lost",
    "MD.Mat.C54_mat3",
    "MD.Mat.C54_null"
   ],
   "note": "False: only rows 0 to 2 are written, for every matrix, and the call succeeds."
  },
  {
   "property": "C55",
   "status": "partial",
   "theorems": [
    "MD.Scheme.C55_case",
    "MD.Scheme.C55_documented",
    "MD.Scheme.C55_unknown",
    "MD.Scheme.C55_rejected",
    "MD.Scheme.C55_garbage_false",
    "MD.Scheme.C55_negative_false",
    "MD.Scheme.C55_escapes_false",
    "MD.Scheme.C55_state_partial",
    "MD.Scheme.C55_time_false",
    "MD.Scheme.C55_queries_false",
    "MD.Scheme.C55_flow_false",
    "MD.Scheme.C55_init_false"
   ],
   "note": "Every documented name selects its scheme in any case and every word with an unknown prefix is refused leaving the system as it was. False: trailing characters and negative iteration counts are accepted, a number out of range escapes as an exception of the standard library; the clock of the new scheme starts at zero, the queries show the initial positions until the next step, the waves keep a pointer to the deleted integrator, and the switch can throw after the old integrator was deleted (all proved)."
  },
  {
   "property": "C56",
   "status": "partial",
   "theorems": [
    "MD.Api.C56_layout",
    "MD.Api.C56_too_many",
    "MD.Api.C56_null",
    "MD.Mooring.C56_values_partial",
    "MD.Mooring.C56_vertical_false"
   ],
   "note": "Layout: every number of lines asked for (32-bit int) and every system of fewer than 2^31 lines; conversion to float is a parameter. Values: the horizontal ones are the horizontal components of the end forces of every line; the vertical ones are not the vertical forces, the weight of the mass of the node and its added mass is subtracted (proved)."
  },
  {
   "property": "C57",
   "status": "partial",
   "theorems": [
    "MD.IC.C57_success_partial",
    "MD.IC.C57_failure_false",
    "MD.IC.C57_zero_factor_false",
    "MD.IC.C57_depth_false",
    "MD.IC.C57_interval_false"
   ],
   "note": "Holds whenever MoorDyn_Init succeeds, for every method, factor, number of intervals and every behaviour of the system. False after a failure (drag stays scaled, or the average depth stays), with the factor zero, and for the interval dtIC, which is divided by 100 for good."
  },
  {
   "property": "C58",
   "status": "proved",
   "theorems": [
    "MD.Waves.C58_resample",
    "MD.Waves.C58_negative"
   ],
   "note": "Every list of two or more components (the readers reject fewer) whose largest frequency is not negative; with negative frequencies only the C++ code reads beyond the table (C58_negative)."
  },
  {
   "property": "C59",
   "status": "partial",
   "theorems": [
    "MD.Waves.C59_lattice_partial",
    "MD.Waves.C59_one_false",
    "MD.Waves.C59_zero_false"
   ],
   "note": "Proved for counts from two on; count one gives two coordinates and count zero 2^32."
  },
  {
   "property": "C60",
   "status": "partial",
   "theorems": [
    "MD.Waves.C60_rows_partial",
    "MD.Waves.C60_first_row_ignored_false",
    "MD.Waves.C60_unknown_coordinates_false"
   ],
   "note": "Every row but the first counts; the first data row of every file is ignored (proved for every file). Rows with unknown coordinates overwrite the first grid point."
  },
  {
   "property": "C61",
   "status": "proved",
   "theorems": [
    "MD.Waves.C61_wave_number",
    "MD.Waves.C61_dispersion",
    "MD.Waves.C61_solution"
   ],
   "note": "Every frequency, positive gravity and depth, over the reals (sqrt, exp and log are the mathematical functions). The approximation has three branches; the bound of one part in ten thousand is proved for all of them, numerically the code is closer."
  },
  {
   "property": "C62",
   "status": "proved",
   "theorems": [
    "MD.Rot.C62_orMat_rotation",
    "MD.Rot.C62_input_angles",
    "MD.Rot.C62_reported_angles",
    "MD.Rot.C62_roundtrip_orientation",
    "MD.Rot.C62_range",
    "MD.Rot.C62_roundtrip_angles",
    "MD.Rot.C62_other_angles"
   ],
   "note": "Over the reals; atan2 is the argument of a complex number (signed zeros not modelled)."
  },
  {
   "property": "C63",
   "status": "partial",
   "theorems": [
    "MD.Rot.C63_rate",
    "MD.Rot.C63_false",
    "MD.Rot.C63_partial",
    "MD.Rot.C63_single_axis_partial",
    "MD.Rot.C63_rigid"
   ],
   "note": "False: angle rates are taken as angular velocity. Characterised exactly; holds for translation and single axis rotations."
  },
  {
   "property": "C64",
   "status": "partial",
   "theorems": [
    "MD.Mooring.C64_pinned_partial",
    "MD.Mooring.C64_clamped_false"
   ],
   "note": "False for clamped ends: the end moments are never set. Holds for pinned ends."
  },
  {
   "property": "C65",
   "status": "partial",
   "theorems": [
    "MD.Mooring.C65_set_get",
    "MD.Mooring.C65_set_tension",
    "MD.Mooring.C65_query_false"
   ],
   "note": "Set and get proved; the query gives the opposite for every line."
  },
  {
   "property": "C66",
   "status": "partial",
   "theorems": [
    "MD.Rods.C66_floating_partial",
    "MD.Rods.C66_inclined_partial",
    "MD.Rods.C66_dipped_false"
   ],
   "note": "Exact if at least half a segment is wet; for every smaller draft the buoyancy is too small."
  },
  {
   "property": "C67",
   "status": "partial",
   "theorems": [
    "MD.Rods.C67_free_rod_partial",
    "MD.Rods.C67_free_rod_false",
    "MD.Bodies.C67_body_force_partial",
    "MD.Bodies.C67_body_added_mass_false",
    "MD.Bodies.C67_body_moment_iff",
    "MD.Bodies.C67_body_moment_partial",
    "MD.Bodies.C67_body_moment_false",
    "MD.Bodies.C67_body_energy"
   ],
   "note": "Rods: holds in translation; false for every free rod rotating about anything but its axis (the centripetal term is missing). Bodies with any points and rods: the force equation holds unless there is added mass and the centre of gravity is off the reference point; the moment equation (proved for bare bodies in vacuum) holds if and only if the angular velocity is along a principal axis, the gyroscopic term is missing (witness). Moments with attachments and in water are not treated."
  },
  {
   "property": "C68",
   "status": "partial",
   "theorems": [
    "MD.Bodies.C68_pin_moment_false",
    "MD.Bodies.C68_pin_moment_partial"
   ],
   "note": "False: the moment of the loads of the rod about the pin is given to the body (witness). It vanishes if the loads are balanced about the pin."
  },
  {
   "property": "C69",
   "status": "partial",
   "theorems": [
    "MD.Bodies.C69_coupled_force",
    "MD.Bodies.C69_pinned_force_partial",
    "MD.Bodies.C69_coupled_moment_partial",
    "MD.Bodies.C69_coupled_moment_false"
   ],
   "note": "Force proved for coupled bodies and, without the added mass effect of C67, for pinned ones. The moment returned for coupled bodies with points is right without rotation; with rotation the moment of the centripetal forces is missing (witness)."
  },
  {
   "property": "C70",
   "status": "partial",
   "theorems": [
    "MD.Reader.C70_partial",
    "MD.Reader.C70_fields",
    "MD.Reader.C70_false",
    "MD.Reader.C70_types"
   ],
   "note": "Every kind of entry and number of fields. False for rods (null pointer) and for failures with four fields (a missing field is read)."
  },
  {
   "property": "C71",
   "status": "partial",
   "theorems": [
    "MD.IC.C71_converged_partial",
    "MD.IC.C71_not_converged",
    "MD.IC.C71_terminates",
    "MD.IC.C71_unchecked_false",
    "MD.IC.C71_window_false"
   ],
   "note": "For every system and threshold: the report of convergence means that the last tension of every line is within the threshold of the nine before, the report of failure means that the time is over and it is not, and the loop ends. False: the nine intervals cover 0.09 dtIC and not dtIC (witness), and if TmaxIC is not more than nine intervals convergence is reported without any check."
  },
  {
   "property": "C72",
   "status": "partial",
   "theorems": [
    "MD.Channel.C72_documented",
    "MD.Channel.C72_filled",
    "MD.Channel.C72_fairten",
    "MD.Channel.C72_anchten",
    "MD.Channel.C72_unknown",
    "MD.Channel.C72_object_false",
    "MD.Channel.C72_node_false",
    "MD.Channel.C72_blank_false",
    "MD.Channel.C72_titles_false",
    "MD.Channel.C72_letters_false",
    "MD.Channel.C72_codes"
   ],
   "note": "Every documented word, in any case, for every system, object and node that exist gives a column with that title, unit and quantity; unknown names and suffixes are refused. False: objects and nodes that do not exist are undefined behaviour, blank cells of the table give columns of zeros, R1TEN and R2TEN get the same title, and letters before a node number are not looked at (all proved)."
  },
  {
   "property": "C73",
   "status": "proved",
   "theorems": [
    "MD.FFT.C73_complex_transform",
    "MD.FFT.C73_forward_transform",
    "MD.FFT.C73_inverse_transform",
    "MD.FFT.C73_round_trip",
    "MD.FFT.C73_factor_table"
   ],
   "note": "For every number of points: the mixed radix algorithm (butterflies of radix 2, 3, 4, 5 and generic, the factorisation, the packing of real data) gives the transform. Real arithmetic instead of double."
  },
  {
   "property": "C74",
   "status": "proved",
   "theorems": [
    "MD.Waves.C74_samples",
    "MD.Waves.C74_linear_theory",
    "MD.Waves.C74_momentum",
    "MD.Waves.C74_surface_pressure",
    "MD.Waves.C74_pressure_partial"
   ],
   "note": "Samples: proved in full, for every spectrum and node. The linear theory holds for that field; the wave number is the one of the code, which is only approximately that of the dispersion relation (C61), and so the gradient of the pressure balances the acceleration up to two parts in ten thousand. Pressure equals the weight of the water above at the still water level exactly unless a component is in the deep water branch (kh > 89.4), where the factor is 1+e^(-2kh); C74_pressure_partial is the exact case, C74_surface_pressure the bound for all."
  },
  {
   "property": "C75",
   "status": "partial",
   "theorems": [
    "MD.Waves.C75_elevation_partial",
    "MD.Waves.C75_cut_false",
    "MD.Waves.C75_short_false"
   ],
   "note": "For every record and dtWave: the series at the origin is the interpolated record without its content above 0.5 Hz, and exactly the interpolated record if dtWave is a second or more. False in general because of the cut, which is not documented (witness), and a record shorter than dtWave asks for a transform of no points."
  },
  {
   "property": "C76",
   "status": "partial",
   "theorems": [
    "MD.Waves.C76_spectrum_partial",
    "MD.Waves.C76_even_spacing",
    "MD.Waves.C76_phase_false"
   ],
   "note": "For every file the grid holds the waves |a| cos(wt - kl + arg a), with half of the amplitude at the first and at the last frequency. False for the component method, which uses the sine for the same file: a quarter of a period apart (witness)."
  },
  {
   "property": "C77",
   "status": "partial",
   "theorems": [
    "MD.Waves.C77_steady_partial",
    "MD.Waves.C77_dynamic_partial",
    "MD.Waves.C77_descending_false",
    "MD.Waves.C77_uneven_false",
    "MD.Waves.C77_after_end_false",
    "MD.Waves.C77_one_time_false"
   ],
   "note": "For every profile with increasing depths (and times) the interpolation holds; for time dependent ones before the last sample, with respect to samples at the multiples of the smallest interval. False: for depths from the surface down, for unevenly spaced times, after the end (the profiles repeat) and for a single time (all proved)."
  },
  {
   "property": "C78",
   "status": "partial",
   "theorems": [
    "MD.MovingWater.C78_line_drag",
    "MD.MovingWater.C78_line_inertia",
    "MD.MovingWater.C78_rod_drag",
    "MD.MovingWater.C78_rod_node",
    "MD.MovingWater.C78_rod",
    "MD.MovingWater.C78_point_false",
    "MD.MovingWater.C78_body_false"
   ],
   "note": "Lines: every node of every line, any coefficients and any wetted part. Rods: every submerged rod with the coefficients an input file can give, in uniformly accelerating water with the corresponding pressure; node by node also for partly submerged rods. False for points and bodies, where the acceleration of the water never enters (proved: a neutrally buoyant one does not follow the water)."
  },
  {
   "property": "C79",
   "status": "partial",
   "theorems": [
    "MD.Options.C79_options",
    "MD.Options.C79_documented",
    "MD.Options.C79_order",
    "MD.Options.C79_default_partial",
    "MD.Options.C79_default_false",
    "MD.Options.C79_failure",
    "MD.Options.C79_garbage_false",
    "MD.Options.C79_zero",
    "MD.Options.C79_depth",
    "MD.Options.C79_depth_partial",
    "MD.Options.C79_depth_false"
   ],
   "note": "For every file with a section of options whose values can be read. False: the default gravity is 9.80665 and not the documented 9.81; the water depth is replaced by the depth of the deepest entry of the list of points if that is greater; text instead of a number reads as zero. The level of the log is that of the first writeLog line, any other option that of its last line. The conversion of numbers is exact (no rounding), the rounding of dtWave to a float is not modelled."
  },
  {
   "property": "C80",
   "status": "partial",
   "theorems": [
    "MD.Options.C80_split",
    "MD.Options.C80_place",
    "MD.Options.C80_distinct",
    "MD.Options.C80_input_partial",
    "MD.Options.C80_input_false",
    "MD.Options.C80_shared_false"
   ],
   "note": "For every path of less than 2^63 characters with a non-empty or empty directory. False for an input file called *.out or *.log, which is overwritten, and for two input files with the same name up to the extension. Lines (bodies, rods) with the same number in the input file share a file: their numbers are not checked."
  },
  {
   "property": "C81",
   "status": "partial",
   "theorems": [
    "MD.Time.C81_ends",
    "MD.Time.C81_velocities",
    "MD.Time.C81_increment",
    "MD.Time.C81_residual",
    "MD.Time.C81_stagnation_false",
    "MD.Time.C81_rotation_false",
    "MD.Mooring.LineType.C81_relative_length_false"
   ],
   "note": "Termination, the velocities and the limits of each move are proved for every system. False: the solver also stops when the error changes by less than ThreshIC between intervals, with the accelerations it began with; and angular accelerations of rods and bodies are not counted; a line whose length is given relative to the distance of its ends (negative number) allows only a negative step. The error is that of the state before the last move."
  },
  {
   "property": "C82",
   "status": "proved",
   "theorems": [
    "MD.Mooring.LineType.C82_columns",
    "MD.Mooring.LineType.C82_columns_fail",
    "MD.Mooring.LineType.C82_length",
    "MD.Mooring.LineType.C82_mass",
    "MD.Mooring.LineType.C82_volume",
    "MD.Mooring.LineType.C82_weight",
    "MD.Mooring.LineType.C82_stiffness",
    "MD.Mooring.LineType.C82_stiffness_table",
    "MD.Mooring.LineType.C82_damping",
    "MD.Mooring.LineType.C82_damping_ratio",
    "MD.Mooring.LineType.C82_damping_table",
    "MD.Mooring.LineType.C82_hydrodynamics",
    "MD.Rods.RodType.C82_rod_columns",
    "MD.Rods.RodType.C82_rod_columns_fail",
    "MD.Rods.RodType.C82_rod_mass",
    "MD.Rods.RodType.C82_rod_weight",
    "MD.Rods.RodType.C82_rod_hydrodynamics"
   ],
   "note": "For every row, length, number of segments and position. Reading of tables from files is C48, slack segments are C30. Tables of damping, which the documentation does not mention, give the cross section times the ordinate (C82_damping_table). Real arithmetic instead of double."
  },
  {
   "property": "C83",
   "status": "partial",
   "theorems": [
    "MD.Rods.Zero.C83_nothing_added",
    "MD.Rods.Zero.C83_coupled_dry",
    "MD.Rods.Zero.C83_axis",
    "MD.Rods.Zero.C83_axis_all",
    "MD.Rods.Zero.C83_joint_partial",
    "MD.Rods.Zero.C83_joint_resultant_partial",
    "MD.Rods.Zero.C83_joint_false",
    "MD.Rods.Zero.C83_clamp_false",
    "MD.Rods.Zero.C83_table_false",
    "MD.Whole.C83_gear"
   ],
   "note": "Nothing added: proved for every free or body-fixed zero-length rod, sea state and coefficients. The axis of the joint balances EI/l times the sine of the angles, while the moments applied are proportional to the sine of half the angles: equal on both sides if EI/l is the same (proved), not in general (witness). False for clamps: the direction given in the input is never used, the cable is clamped in the direction of its own segment and feels no moment (proved for every cable). With tabulated bending stiffness the first axis is a division by zero."
  },
  {
   "property": "C84",
   "status": "partial",
   "theorems": [
    "MD.Words.C84_case",
    "MD.Words.C84_point_words",
    "MD.Words.C84_rod_words",
    "MD.Words.C84_body_words",
    "MD.Words.C84_on_body",
    "MD.Words.C84_line_ends",
    "MD.Words.C84_ends_exist",
    "MD.Words.C84_system",
    "MD.Words.C84_accepted",
    "MD.Words.C84_ids_partial",
    "MD.Words.C84_body_misspelt_false",
    "MD.Words.C84_rod_misspelt_false",
    "MD.Words.C84_suffix_false",
    "MD.Words.C84_ids_false"
   ],
   "note": "Proved for every list of rows and every word of letters, and letters with a number: types, parents and ends, order of the coupled and free objects, refusal of unknown words for points and lines and of references that do not exist for points and lines. False: a misspelt word makes a body free without an error; a misspelt word, type or body number of a rod stores a null pointer that is then used; letters after Body# are ignored for points and fix a rod unless they are Pinned or Pin; references count rows and ignore the ID column, so they are the IDs only where the rows are numbered 1, 2, 3 (proved for points), which is not checked."
  },
  {
   "property": "C85",
   "status": "partial",
   "theorems": [
    "MD.Rods.C85_righting_partial",
    "MD.Rods.C85_moment_partial",
    "MD.Rods.C85_righting_false"
   ],
   "note": "The moment computed by Rod::doRHS for an inclined rod in still water, in closed form, for all rods whose node sections are each wholly wet or dry and the surface midway between two nodes. Its direction is right. Its value is not: the cap at the lower end contributes an overturning moment (the pressure on it rights the rod) and the waterplane term is 4 cos(phi) I instead of what the displaced water gives, (4 cos(phi) - 1) rho g I sin(phi) against (1 + tan(phi)^2 / 2) rho g I sin(phi), I the second moment of area: about three times too stiff at small inclinations. The true moment is an integral over the displaced water (Spec/Cylinder). Not covered: sections cut by the surface, rods with end B down."
  },
  {
   "property": "C86",
   "status": "proved",
   "theorems": [
    "MD.Rods.C86_force"
   ],
   "note": "Total of the nodal forces, all terms, in real arithmetic. The moment is in C35 (buoyancy), C85 and C87; turning rods are in C32 and C78."
  },
  {
   "property": "C87",
   "status": "partial",
   "theorems": [
    "MD.Rods.C87_pressure",
    "MD.Rods.C87_centre",
    "MD.Rods.C87_clear",
    "MD.Rods.C87_push_partial",
    "MD.Rods.C87_suction_false",
    "MD.Rods.C87_friction_false",
    "MD.Rods.C87_zero_length_false",
    "MD.Rods.C87_surface_false"
   ],
   "note": "Load and lever are right. Violated: a rod that rises fast is held back by the bottom; there is no friction under rods whatever the friction options; contact is with the axis, so that a rod lies half in the ground before it is felt; rods of length zero sink. Rods partly on the bottom are only covered node by node."
  },
  {
   "property": "C88",
   "status": "partial",
   "theorems": [
    "MD.WaterModes.C88_modes",
    "MD.WaterModes.C88_refused_partial",
    "MD.WaterModes.C88_unimplemented_false",
    "MD.WaterModes.C88_ignored_false",
    "MD.WaterModes.C88_air_false"
   ],
   "note": "All documented pairs give the documented sea (how it is summed is C25). Violated: WaveKin 5 and 6 and Currents 3 and 4 are accepted and give still water; any value that is not implemented is ignored when the other option has an implemented value; currents extend into the air. The asserts that would stop a debug build are not part of the default build. Files that cannot be read are not modelled here."
  },
  {
   "property": "C89",
   "status": "partial",
   "theorems": [
    "MD.Time.C89_solution",
    "MD.Time.C89_substeps_partial",
    "MD.Time.C89_limit_partial",
    "MD.Time.C89_factor",
    "MD.Time.C89_aca_factor",
    "MD.Time.C89_spring_false",
    "MD.Time.C89_damper_false",
    "MD.Time.C89_aca_factor_false"
   ],
   "note": "The sentence about arbitrarily large time steps is refuted (C89_spring_false, C89_damper_false: the relaxation factor tends to 0.9, not to 1). Anderson acceleration, ACA and Wilson are not covered by the convergence theorem."
  },
  {
   "property": "C90",
   "status": "partial",
   "theorems": [
    "MD.Time.C90_positions",
    "MD.Time.C90_force_time",
    "MD.Time.C90_call_partial",
    "MD.Time.C90_old_forces",
    "MD.Time.C90_heun_forces",
    "MD.Time.C90_consistent_false",
    "MD.Time.watched_step"
   ],
   "note": "Positions and the exact time of the forces are proved for every scheme; age at most dtM for all but Wilson. That forces and positions are of the same instant is false (C90_consistent_false)."
  },
  {
   "property": "C91",
   "status": "partial",
   "theorems": [
    "MD.Mooring.LineType.C91_node_force",
    "MD.Mooring.LineType.C91_node_mass",
    "MD.Mooring.LineType.C91_mode",
    "MD.Mooring.LineType.C91_damping_ratio",
    "MD.Mooring.LineType.C91_highest",
    "MD.Mooring.LineType.C91_cfl_false"
   ],
   "note": "Axial motions of a straight line. The claim on the option CFL is false: the code uses the stiffness EA N/L, so a factor cfl gives a time step of 2 cfl natural periods (C91_cfl_false)."
  },
  {
   "property": "C92",
   "status": "partial",
   "theorems": [
    "MD.Time.C92_step",
    "MD.Time.C92_run",
    "MD.Time.C92_stable",
    "MD.Time.C92_unstable",
    "MD.Time.C92_undamped",
    "MD.Time.C92_critical",
    "MD.Time.C92_rk2_safe",
    "MD.Time.C92_cfl_step",
    "MD.Time.C92_default_false"
   ],
   "note": "Linear modes; Euler, RK2 and RK4 with constant step. The claim on the defaults is false: CFL 0.5 and RK2 multiply the amplitude of that mode by more than 200 each step, for every damping ratio in [0,1] (C92_default_false)."
  },
  {
   "property": "C93",
   "status": "proved",
   "theorems": [
    "MD.Mooring.C93_pressure_size",
    "MD.Mooring.C93_pressure_direction",
    "MD.Mooring.C93_pressure_force",
    "MD.Mooring.C93_pressure_resultant",
    "MD.Mooring.C93_bending_table",
    "MD.Mooring.C93_end_moment",
    "MD.Mooring.kurv_EI"
   ],
   "note": "Size and direction are proved for segments of any lengths. The resultant needs equal segments and pinned ends, as the statement says. The pressure at the clamped ends of a line is not part of the statement."
  },
  {
   "property": "C94",
   "status": "partial",
   "theorems": [
    "MD.Coupled.C94_backward",
    "MD.Coupled.C94_kinematics",
    "MD.Coupled.C94_ratio",
    "MD.Coupled.C94_uniform",
    "MD.Coupled.C94_first_false",
    "MD.Coupled.C94_no_time",
    "MD.Coupled.C94_mean_value",
    "MD.Bodies.C94_pinned_body_partial",
    "MD.Bodies.C94_coupled_pinned_rod_partial",
    "MD.Bodies.C94_coupled_pinned_rod_iff",
    "MD.Bodies.C94_pinned_rod_false",
    "MD.Bodies.C94_pinned_rod_partial"
   ],
   "note": "False in the first call (always zero), with steps of varying length (wrong by their ratio) and for rods pinned to bodies, which never learn the acceleration of the pin. Rotating objects: rods in vacuum are right exactly about their principal axes; pinned bodies only with points."
  },
  {
   "property": "C95",
   "status": "partial",
   "theorems": [
    "MD.Py.C95_reach",
    "MD.Py.C95_complete",
    "MD.Py.C95_arguments",
    "MD.Py.C95_instance",
    "MD.Py.C95_instance_false",
    "MD.Py.C95_waves_false",
    "MD.Py.C95_names_false",
    "MD.Py.C95_names_never",
    "MD.Py.C95_other_false",
    "MD.Py.C95_step",
    "MD.Py.C95_step_refused",
    "MD.Py.C95_init",
    "MD.Py.C95_init_raises_false",
    "MD.Py.C95_ext_wave",
    "MD.Py.C95_ext_wave_n_false",
    "MD.Py.C95_ext_wave_n_partial",
    "MD.Py.C95_press",
    "MD.Py.C95_refused_leak_false",
    "MD.Py.C95_failed_leak_false",
    "MD.Py.C95_item_leak_false",
    "MD.Py.C95_none_false",
    "MD.Py.C95_none_used_up",
    "MD.Py.C95_closed_false",
    "MD.Py.C95_close_other",
    "MD.Py.C95_deserialize_false",
    "MD.Py.C95_deserialize",
    "MD.Py.C95_press_bend",
    "MD.Py.C95_press_bend_false"
   ],
   "note": "82 of 87 functions reach what they announce. False: GetWavesKin, IsLinePressBend and UseBodyVTK can never succeed, GetLineNodeSeabedForce returns the Froude-Krylov force, ExternalWaveKinGetN always returns 0; refused and failed calls leak; functions returning None lose a reference to it in each call; a failed Init does not raise; a closed handle stays usable (undefined); SetLinePressBend(False) depends on uninitialised memory."
  },
  {
   "property": "C96",
   "status": "partial",
   "theorems": [
    "MD.Foreign.C96_received",
    "MD.Foreign.C96_declared",
    "MD.Foreign.C96_fortran",
    "MD.Foreign.C96_verbosity_false",
    "MD.Foreign.C96_linked",
    "MD.Foreign.C96_reference_false",
    "MD.Foreign.C96_press_bend_false",
    "MD.Foreign.C96_stiffness_false",
    "MD.Foreign.C96_ext_wave_partial",
    "MD.Foreign.C96_waves_partial",
    "MD.Foreign.C96_waves_false",
    "MD.Foreign.C96_fast_false",
    "MD.Foreign.C96_rust",
    "MD.Foreign.C96_rust_waves_false",
    "MD.Foreign.C96_matlab_step",
    "MD.Foreign.C96_matlab_error",
    "MD.Foreign.C96_matlab_init",
    "MD.Foreign.C96_matlab_short_false"
   ],
   "note": "79 of the 87 Fortran functions hand over what they are given. False: MD_SetVerbosity cannot be linked; MD_SetLogLevel, MD_Log and MD_SetLinePressBend hand over part of an address instead of the number; MD_SetLineConstantEA hands over no stiffness; MD_GetWavesKin has one parameter too many, wrong under the Microsoft convention; MD_GetFASTtens receives single precision numbers in double precision arrays. Rust: 51 of 52 declarations are those of the C headers; that of MoorDyn_GetWavesKin lacks the sea floor, which the library then takes from wherever it happens to be. MATLAB: arrays that are too short are read past their end (the other MATLAB functions are in C116). The strings Fortran must terminate are not modelled."
  },
  {
   "property": "C97",
   "status": "partial",
   "theorems": [
    "MD.SeaFiles.C97_place",
    "MD.SeaFiles.C97_place_false",
    "MD.SeaFiles.C97_missing",
    "MD.SeaFiles.C97_spectrum",
    "MD.SeaFiles.C97_spectrum_refused",
    "MD.SeaFiles.C97_direction_false",
    "MD.SeaFiles.C97_elevation",
    "MD.SeaFiles.C97_elevation_refused",
    "MD.SeaFiles.C97_empty_false",
    "MD.SeaFiles.C97_steady",
    "MD.SeaFiles.C97_steady_refused",
    "MD.SeaFiles.C97_dynamic",
    "MD.SeaFiles.C97_dynamic_refused",
    "MD.SeaFiles.C97_short_line_false",
    "MD.SeaFiles.C97_grid",
    "MD.SeaFiles.C97_grid_false",
    "MD.SeaFiles.C97_many_false",
    "MD.SeaFiles.C97_4d_partial",
    "MD.SeaFiles.C97_first_line_false",
    "MD.SeaFiles.C97_example_false"
   ],
   "note": "Documented files are read as written. False: for an input file given without directory all files but that of the 4D currents are looked for in the root of the file system; a direction followed by another word is ignored; an empty record of elevations, a blank kind of axis and a uniform axis with fewer than three numbers are undefined behaviour; a line of the dynamic profile with too few numbers for the second axis gives zeros; a uniform axis of 2^32 points or more loses so many; the first line of data of the 4D currents is ignored, and the example of the documentation is misread because coordinates are compared as text. Numbers are exact here: the rounding to double (and of the depths of the dynamic profile to single precision) is not modelled."
  },
  {
   "property": "C98",
   "status": "partial",
   "theorems": [
    "MD.State.C98_every",
    "MD.State.C98_components",
    "MD.State.C98_add",
    "MD.State.C98_rate_difference",
    "MD.State.C98_state_difference_partial",
    "MD.State.C98_state_difference_false",
    "MD.State.C98_scale",
    "MD.State.C98_mix",
    "MD.State.C98_predictors",
    "MD.State.C98_sizes",
    "MD.State.C98_mix_sizes_false",
    "MD.State.C98_ragged_line",
    "MD.State.C98_expressions",
    "MD.State.C98_schemes"
   ],
   "note": "Proved for every operation and every expression except the difference of states, which for rods and bodies is their sum (C98_state_difference_false; the consequence for ab2, ab3 and ab4 is C08_rigid_ab_false), and the comparison of sizes when mixing, which is not made."
  },
  {
   "property": "C99",
   "status": "partial",
   "theorems": [
    "MD.Frame.C99_line",
    "MD.Frame.C99_point",
    "MD.Frame.C99_point_acc",
    "MD.Frame.C99_body_point",
    "MD.Frame.C99_rod_partial",
    "MD.Frame.C99_rod_acc_partial",
    "MD.Frame.C99_body_partial",
    "MD.Frame.C99_body_acc_partial",
    "MD.Frame.C99_kinematics",
    "MD.Frame.C99_step",
    "MD.Frame.C99_call",
    "MD.Frame.C99_machine",
    "MD.Frame.C99_simulation_partial",
    "MD.Frame.C99_world",
    "MD.Frame.C99_start_partial",
    "MD.Frame.C99_reported",
    "MD.Frame.C99_returned",
    "MD.Frame.C99_rod_false",
    "MD.Frame.C99_anderson_false",
    "MD.Whole.C99_gear_partial",
    "MD.Whole.C99_gear_shift_partial",
    "MD.Whole.C99_whole_partial",
    "MD.Whole.C99_whole_shift_partial"
   ],
   "note": "Proved for forces, masses and accelerations of all objects, and for whole simulations of lines and points with every scheme but Anderson's. False for rods that lean by less than 1e-6, which are taken to lean towards x (C99_rod_false), and for Anderson's scheme, whose stopping criterion uses absolute values of components (C99_anderson_false). Whole simulations with rods and bodies are covered by C99_whole_partial for any formulas of forces that do not depend on the axes, with the explicit schemes and implicit Euler, and by C99_whole_shift_partial for a moved origin with every scheme but that of Anderson; the predictors of Newmark and Wilson turn accelerations into quaternions by Euler angles, so turned axes are left out there (C10_rigid_newmark_false). C99_gear_partial and C99_gear_shift_partial state the same with the forces that the code computes: for turned axes the rods have a length, coupled bodies and rods are level, no rod is almost but not quite vertical and no quaternion vanishes during the run, and the half turn that Eigen finds for opposite vectors is taken to be exact; for a moved origin there is no such condition. Mirror images are covered for lines and points only."
  },
  {
   "property": "C100",
   "status": "partial",
   "theorems": [
    "MD.Reverse.C100_mass_partial",
    "MD.Reverse.C100_force_partial",
    "MD.Reverse.C100_ends_partial",
    "MD.Reverse.C100_output_partial",
    "MD.Reverse.C100_tension",
    "MD.Reverse.C100_fairlead",
    "MD.Reverse.C100_exists",
    "MD.Reverse.C100_max_false",
    "MD.Reverse.C100_surface_false",
    "MD.Relabel.C100_simulation_partial",
    "MD.Relabel.C100_world"
   ],
   "note": "Forces, masses, tensions, and whole simulations of lines and points with every scheme. Partial because an end of a segment exactly at the surface has to be excluded: calcSubSeg takes the segment to be submerged or dry depending on which end comes first (C100_surface_false). MoorDyn_GetLineMaxTen leaves out the end B, so that it depends on which end is called A (C100_max_false)."
  },
  {
   "property": "C101",
   "status": "partial",
   "theorems": [
    "MD.Relabel.C101_simulation",
    "MD.Relabel.C101_returned",
    "MD.Relabel.C101_world",
    "MD.Whole.C101_whole",
    "MD.Whole.C101_gear",
    "MD.Whole.C101_zero_rods_false"
   ],
   "note": "Lines and points with the formulas of the code in Model/Moored (C101_simulation), with the ends of lines exchanged too; bodies, rods, points and lines with arbitrary formulas of the forces in Model/Whole (C101_whole) and with those of the code in Model/Gear (C101_gear). False for rods without length that hold both ends of a line of one segment: the rod that is updated first sees where the other one was before (C101_zero_rods_false). In exact arithmetic; sums of floating point numbers depend on the order in the last digits."
  },
  {
   "property": "C102",
   "status": "partial",
   "theorems": [
    "MD.Energy.C102_work_partial",
    "MD.Energy.C102_energy_partial",
    "MD.Energy.C102_reported",
    "MD.Energy.C102_elastic",
    "MD.Energy.C102_bottom",
    "MD.Energy.C102_body_rate",
    "MD.Energy.C102_body_partial",
    "MD.Energy.C102_points_rate",
    "MD.Energy.C102_points_partial",
    "MD.Energy.C102_body_false",
    "MD.Energy.C102_rod_false"
   ],
   "note": "The motion is one in continuous time obeying the rates of the model (the error of the integrators is C91 and C92). Missing: lines with bending stiffness, internal pressure or tabulated damping (for a mirrored damping table the claim is false, C32_mirrored_table_false), segments crossing the surface, submerged lines whose added mass differs along and across the line (the code leaves out the force needed to turn such a mass), and bodies with rods or with points that hold lines. For free rods it is false (C102_rod_false: a rod that turns about its resting centre in deep space moves off). Free bodies by themselves, whose orientation follows the rates of the code: C102_body_rate gives the rate of the energy exactly, C102_body_partial is the claim for added mass that is the same in all directions (with the centre of gravity at the reference point) or absent; C102_points_rate and C102_points_partial are the same for bodies that carry any number of points, weights or floats, without lines; for other added mass it is false (C102_body_false: a neutral body without drag that drifts and spins gains energy). C102_elastic and C102_bottom give two terms of the energy in closed form."
  },
  {
   "property": "C103",
   "status": "partial",
   "theorems": [
    "MD.Elastic.C103_tension",
    "MD.Elastic.C103_tension_cycle",
    "MD.Elastic.C103_bending_false",
    "MD.Elastic.C103_bending_partial"
   ],
   "note": "Proved for tensions (without internal damping, which takes energy by C32). For bending the claim is false (C103_bending_false, a cycle of four strokes of two segments with pinned ends); C103_bending_partial proves it for segments of constant lengths, bent by more than the tolerance of the code and not folded, constant bending stiffness, pinned ends."
  },
  {
   "property": "C104",
   "status": "proved",
   "theorems": [
    "MD.Balance.C104_force",
    "MD.Balance.C104_moment",
    "MD.Balance.C104_tied",
    "MD.Balance.C104_defined",
    "MD.Balance.C104_momentum"
   ],
   "note": "Lines and points as in Model/Moored (no rods and bodies). With internal pressure the net force on a line is false (C29_internal_pressure_false). C104_defined shows that accelerations and forces exist in every state of lines with constant damping and positive masses; with tabulated damping a line at rest has none (C32_table_at_rest_false)."
  },
  {
   "property": "C105",
   "status": "proved",
   "theorems": [
    "MD.Symmetry.C105_simulation",
    "MD.Symmetry.C105_force",
    "MD.Symmetry.C105_tension",
    "MD.Symmetry.C105_plane",
    "MD.Symmetry.C105_axis"
   ],
   "note": "Lines and points as in Model/Moored (no rods and bodies), in exact arithmetic. Unlike C99 it holds for every scheme and every turn: whatever makes the iterations end, it is the same for the whole system. A turn or reflection with labels exchanged and lines possibly turned round."
  },
  {
   "property": "C106",
   "status": "partial",
   "theorems": [
    "MD.Separate.C106_simulation_partial",
    "MD.Separate.C106_rest_partial",
    "MD.Separate.C106_force",
    "MD.Separate.C106_anderson_false",
    "MD.Separate.C106_step_false",
    "MD.Separate.C106_depth_false",
    "MD.Whole.C106_whole_partial",
    "MD.Whole.C106_whole_rest_partial",
    "MD.Whole.C106_gear_partial",
    "MD.Whole.C106_beside_partial"
   ],
   "note": "Lines and points as in Model/Moored; bodies, rods, points and lines as in Model/Whole, where rods have a length (C106_whole_partial), also with the formulas of the code in Model/Gear (C106_gear_partial) and for two systems described one after the other in one file (C106_beside_partial). False in three respects: Anderson's schemes stop iterating by the mean residue of everything, so that another buoy elsewhere changes the motion of a buoy (C106_anderson_false); a time step chosen by stability is that of the stiffest line of all (C106_step_false); a point deeper than the bottom puts the bottom down for all (C106_depth_false). Floating point: the same operations are done for the part in the same order, so nothing is lost there."
  },
  {
   "property": "C107",
   "status": "partial",
   "theorems": [
    "MD.Towing.C107_simulation_partial",
    "MD.Towing.C107_seen_partial",
    "MD.Towing.C107_force",
    "MD.Towing.C107_line",
    "MD.Towing.C107_rod",
    "MD.Towing.C107_rod_acc",
    "MD.Towing.C107_body",
    "MD.Towing.C107_body_acc",
    "MD.Towing.C107_body_parts",
    "MD.Towing.C107_heun_false"
   ],
   "note": "Simulations: lines and points as in Model/Moored, each end of a line being held by a point; for rods and bodies the forces, mass matrices and accelerations at one moment. The schemes that iterate, and the one that leaves out evaluations, are covered from a moment at which the rates stored from the step before differ by the velocity, which at the very start they do not, being zero in both; the others from the start. With the scheme of Heun it is false (C107_heun_false): a buoy that moves with the water is left behind by half the way in the first step, and later the buoys are looked at one step ahead of the coupled points. Wilson is left out because its clock is wrong (C06)."
  },
  {
   "property": "C108",
   "status": "partial",
   "theorems": [
    "MD.Units.C108_simulation_partial",
    "MD.Units.C108_seen_partial",
    "MD.Units.C108_froude_partial",
    "MD.Units.C108_force",
    "MD.Units.C108_line",
    "MD.Units.C108_point",
    "MD.Units.C108_tension",
    "MD.Units.C108_world",
    "MD.Units.C108_start",
    "MD.Units.C108_clear",
    "MD.Units.C108_wave",
    "MD.Units.C108_short_false",
    "MD.Units.C108_anderson_false",
    "MD.Units.C108_rod_partial",
    "MD.Units.C108_rod_acc_partial",
    "MD.Units.C108_body_point",
    "MD.Units.C108_body_partial",
    "MD.Units.C108_body_acc_partial",
    "MD.Units.C108_rod_false",
    "MD.Whole.C108_whole_partial"
   ],
   "note": "Lines and points as in Model/Moored. Forces, moments, masses and accelerations of rods and of bodies with points and rods are those in the new units (C108_rod_partial, C108_body_partial), unless a rod is nearly but not quite vertical and one of its sections reaches through the surface: there the code takes half a square metre for the area under water, whatever the units (C108_rod_false). Systems with bodies and rods are covered by C108_whole_partial for any formulas of forces of the right dimensions. As long as nothing is taken for zero that is not: a length, or a curvature other than that of a straight line, below 1.2e-14 in one of the units (C108_clear, C108_short_false). The tolerance of Anderson is a fixed acceleration and has to be converted, which the code does not allow (C108_anderson_false); in a model test it need not. Defaults that the input leaves to the code (g, density, depths, time steps) are in SI units."
  },
  {
   "property": "C109",
   "status": "partial",
   "theorems": [
    "MD.Restart.C109_restart",
    "MD.Restart.C109_resumed",
    "MD.Restart.C109_rates",
    "MD.Restart.C109_update",
    "MD.Restart.C109_history",
    "MD.Restart.C109_local_false",
    "MD.Whole.C109_whole_update",
    "MD.Whole.C109_whole_call",
    "MD.Whole.C109_whole"
   ],
   "note": "C109_restart is for lines and points as in Model/Moored, with their laws; C109_whole is for bodies, rods, points and lines with arbitrary laws of the forces, where what the file does not hold (accelerations, kinds of ends, the ground) is shown not to be needed. That what MoorDyn_Load reads is what MoorDyn_Save wrote is C04 (in floating point C03). What is set through the API and is not stored has to be set again: unstretched lengths (C05); a file saved after a failure has one more point (C02). The local Euler scheme does not store its masks (C109_local_false); stepOf treats it without masks, so C109_restart says nothing about it."
  },
  {
   "property": "C110",
   "status": "proved",
   "theorems": [
    "MD.Whole.C110_update",
    "MD.Whole.C110_forces",
    "MD.Whole.C110_given",
    "MD.Whole.C110_start",
    "MD.Whole.C110_simulation",
    "MD.Whole.C110_rigid",
    "MD.Whole.C110_length",
    "MD.Whole.C110_fixed_body",
    "MD.Whole.C110_fixed_point",
    "MD.Whole.C110_anchor"
   ],
   "note": "The laws of the forces are arbitrary functions. Failures (C17, C18) and MoorDyn_SetLineUnstretchedLength are not in this model. The inner nodes of rods are not among what is connected, see C111. Orthogonality of the rotation matrices, which C110_rigid and C110_length assume, is C62. Rods without length have no axis of their own; of them positions and velocities are shown, not the direction."
  },
  {
   "property": "C111",
   "status": "partial",
   "theorems": [
    "MD.Whole.C111_forces",
    "MD.Whole.C111_update",
    "MD.Whole.C111_given",
    "MD.Whole.C111_simulation",
    "MD.Whole.C111_anchor_false",
    "MD.Whole.C111_fixed_rod_false",
    "MD.Whole.C111_fixed_body_false",
    "MD.Whole.C111_nodes_false",
    "MD.Whole.C111_water_false"
   ],
   "note": "Proved is that the forces are of one moment. That all forces are computed and that rods are straight at the end of a step is refuted: C111_anchor_false, C111_fixed_rod_false and C111_fixed_body_false for all simulations, C111_nodes_false and C111_water_false with a coupled rod of two segments. The laws of the forces are arbitrary functions; which moment it is depends on the integrator (C90 for lines). The inertia of coupled bodies and rods, which is added when their force is read, is that of the acceleration of the last update and not in this statement."
  },
  {
   "property": "C112",
   "status": "proved",
   "theorems": [
    "MD.Whole.C112_update",
    "MD.Whole.C112_call",
    "MD.Whole.C112_anchor"
   ],
   "note": "C112_call is for one call from any connected memory, and by C110_simulation every memory of a simulation is connected. C112_update says the same of every Update inside the steps, for rods with length, and that nothing else is changed. Real arithmetic: the sum of the internal steps is dt exactly. That a body of the kind FIXED and the ground stay where Init puts them is in Placed; failures of lines are not in this model."
  },
  {
   "property": "C113",
   "status": "partial",
   "theorems": [
    "MD.Whole.C113_force_partial",
    "MD.Whole.C113_moment_partial",
    "MD.Whole.C113_clamped_moment_false",
    "MD.Whole.C113_body",
    "MD.Whole.C113_rod",
    "MD.Whole.C113_point",
    "MD.Whole.C113_defined"
   ],
   "note": "C113_force_partial and C113_moment_partial are the two sums, of one evaluation from any memory (moments: any connected one, which all memories of a simulation are by C110). Missing, and why moments are only partial: the moments of stiff lines at clamped ends (Gear.clamped), which C113_clamped_moment_false shows never to be passed on (endMomentA and endMomentB are only initialized). C113_defined: with constant damping and masses the hypotheses hold. Real arithmetic; linear systems are solved with the inverse. What MoorDyn_Step returns for coupled bodies and rods is this less mass times the given acceleration (C67, C68); rods of zero length are in the sums but not in C113_rod."
  },
  {
   "property": "C114",
   "status": "partial",
   "theorems": [
    "MD.Rounded.C114_rounding",
    "MD.Rounded.C114_steps",
    "MD.Rounded.C114_call",
    "MD.Rounded.C114_clock",
    "MD.Rounded.C114_hangs",
    "MD.Rounded.C114_clock_stops",
    "MD.Rounded.C114_ten_tenths_false"
   ],
   "note": "Exact IEEE 754 sums and differences (round to nearest, ties to even), written as integers in units of the smallest positive number; C114_rounding shows that the model of rounding is correct rounding. Missing: infinities, NaN and overflow; -ffast-math (an option of the build, off by default); the scheme itself is any function (its own arithmetic is not rounded here); schemes which add the step in two parts (rk2, rk4, Newmark family) are covered by C114_clock with both parts in the list, not by C114_call."
  },
  {
   "property": "C115",
   "status": "partial",
   "theorems": [
    "MD.Vtk.C115_line",
    "MD.Vtk.C115_line_sound_partial",
    "MD.Vtk.C115_line_sound_false",
    "MD.Vtk.C115_line_empty_undefined",
    "MD.Vtk.C115_rod",
    "MD.Vtk.C115_point",
    "MD.Vtk.C115_body",
    "MD.Vtk.C115_axes",
    "MD.Vtk.C115_system",
    "MD.Vtk.C115_save",
    "MD.Vtk.C115_shape",
    "MD.Vtk.C115_shape_false"
   ],
   "note": "False for lines: the array F, of one number for each segment, is kept with one more entry and saved so, and the file of every line has an array of cells with one tuple too many (C115_line_sound_false; C115_line_sound_partial without it). Saving a line without segments, and loading a model whose name is made of dots only, is undefined behaviour; a model that does not exist is reported as an output file that cannot be written. VTK itself (what its containers, RotateWXYZ and its writers do) is modelled from its documentation; arrays of vectors on the model of a body, which VTK turns too, are left out."
  },
  {
   "property": "C116",
   "status": "partial",
   "theorems": [
    "MD.Matlab.C116_call",
    "MD.Matlab.C116_outputs",
    "MD.Matlab.C116_named",
    "MD.Matlab.C116_counted",
    "MD.Matlab.C116_file_name_false",
    "MD.Matlab.C116_no_way_false",
    "MD.Matlab.C116_matrix",
    "MD.Matlab.C116_matrix_false",
    "MD.Matlab.C116_create",
    "MD.Matlab.C116_coordinates"
   ],
   "note": "False for eight functions: MoorDynM_Save, Load, SaveVTK, SaveBodyVTK, SaveLineVTK, SaveRodVTK, UseBodyVTK and SetLogFile take the file name from the input that is the handle, so no call of them can work (C116_file_name_false, C116_no_way_false); matrices come out transposed (C116_matrix). Partial: the C++ interface of MATLAB is modelled from its documentation, the library is any function of name, arguments and state, and a handle of the wrong kind is not detected by the code nor excluded here."
  },
  {
   "property": "C117",
   "status": "partial",
   "theorems": [
    "MD.Whole.C117_symmetric_partial",
    "MD.Whole.C117_axis_partial"
   ],
   "note": "The whole system with all forces of the code (Model/Gear), in exact arithmetic. Partial: as long as no rod is almost but not quite vertical when forces are computed, which the run records (for those the code ignores the heading and the statement is false, as for C99), and no quaternion vanishes; bodies and rods that are moved are level; without the schemes Newmark, Wilson and Anderson, which treat the four numbers of a quaternion one by one or the sum of all; a body that lies turned in the place of another has the same coefficients in both horizontal directions. The first direction of a rod, against which its attitude counts and which the code takes from the coordinates in the input, may be turned against that of its counterpart, as it is for inclined rods on either side of a platform. The quaternion that Eigen chooses between opposite directions is assumed to turn the one into the other."
  },
  {
   "property": "C118",
   "status": "partial",
   "theorems": [
    "MD.Whole.C118_axes_partial",
    "MD.Whole.C118_own_partial"
   ],
   "note": "The whole system with all forces of the code (Model/Gear), in exact arithmetic. C118_own_partial has the axes of the world as they are: whatever attitudes are asked for, and however the rods lie. C118_axes_partial moves and turns them too. Partial for the reasons of C117: vanishing quaternions, with turned axes of the world rods that are almost vertical and bodies that are moved and not level, and without the schemes Newmark, Wilson and Anderson. The first directions of the rods may be given otherwise too."
  },
  {
   "property": "C119",
   "status": "partial",
   "theorems": [
    "MD.Whole.C119_image_partial",
    "MD.Whole.C119_sides_partial",
    "MD.Whole.C119_plane_partial"
   ],
   "note": "The whole system with all forces of the code (Model/Gear), in exact arithmetic. No exception for rods that are almost vertical or bodies that are not level, unlike C117, as headings of the horizontal axes only change their sign. Partial: without the scheme of Anderson; the quaternion that Eigen chooses between opposite directions is assumed to turn the one into the other, and the same one for a direction and its image."
  },
  {
   "property": "C120",
   "status": "partial",
   "theorems": [
    "MD.Layout.C120_uncoupled",
    "MD.Layout.C120_idle",
    "MD.Layout.C120_arrays",
    "MD.Layout.C120_motion_false",
    "MD.Layout.C120_forces_false",
    "MD.Layout.C120_time_false"
   ],
   "note": "What Init and Step do with the motions they have read is a parameter. Proved for systems without coupled objects, for steps that are not positive, and for arrays that are there. Otherwise the statement is false: the code writes a message and goes on (MoorDyn2.cpp 408-412 and 629-632 lack a return), so that with coupled objects every null pointer to positions or velocities is followed, by MoorDyn_Init and, with a positive step, by MoorDyn_Step (C120_motion_false); a null pointer to the forces is reported only after the step has been taken (C120_forces_false); null pointers to the time and to the step are followed without a check (C120_time_false)."
  },
  {
   "property": "C121",
   "status": "partial",
   "theorems": [
    "MD.Failures.C121_point",
    "MD.Failures.C121_rod",
    "MD.Failures.C121_exists",
    "MD.Failures.C121_rows",
    "MD.Failures.C121_due",
    "MD.Failures.C121_no_time",
    "MD.Failures.C121_tension_false",
    "MD.Failures.C121_repeated_false",
    "MD.Failures.C121_unattached_false"
   ],
   "note": "What rows mean and that accepted rows name existing objects is proved for all rows. False: the tension is read and never used (C121_tension_false); a row repeated is an error of the step in which both are due (C121_repeated_false); a line that is not attached to the point of the row is accepted, and is an error when the failure is due (C121_unattached_false). When a time is reached is C17, rows of four entries are C70. The manual marks the section as one of the Fortran version, but the C++ version reads and acts on it. Failure times that are infinite or not a number are read and not followed further."
  },
  {
   "property": "C122",
   "status": "partial",
   "theorems": [
    "MD.PointRow.C122_columns_partial",
    "MD.PointRow.C122_force",
    "MD.PointRow.C122_values",
    "MD.PointRow.C122_refused",
    "MD.PointRow.C122_place",
    "MD.PointRow.C122_remark_false"
   ],
   "note": "Proved for rows of nine columns with at most two further words, for rows of twelve columns with any number of further words, and for rows that are refused. False: three or more words behind nine columns turn drag area and added mass into a force, and the words into drag area and added mass (C122_remark_false). The words of the attachment are C84, numbers as text C48. The number of the point, and the water depth that the row may change (C79), are left out."
  },
  {
   "property": "C123",
   "status": "partial",
   "theorems": [
    "MD.LineRow.C123_columns",
    "MD.LineRow.C123_refused",
    "MD.LineRow.C123_exists",
    "MD.LineRow.C123_older_false",
    "MD.LineRow.C123_senseless_false"
   ],
   "note": "The present format is proved for all rows, and that whatever is accepted names existing objects. False: the heading of the older format is known but its order of columns is not, so a row of it with a short line is taken for another line (C123_older_false); lengths that are no numbers and numbers of segments that are zero or negative are accepted (C123_senseless_false). Unlike the rows of points (C122) words behind the columns do no harm. The output file of the line is C70 and C46, rods that could not be made are C84, what Line::setup does with a length or a number of segments that makes no sense is left out."
  },
  {
   "property": "C124",
   "status": "partial",
   "theorems": [
    "MD.RodRow.C124_columns",
    "MD.RodRow.C124_exists",
    "MD.RodRow.C124_none",
    "MD.RodRow.C124_segments_false",
    "MD.Words.C84_rod_misspelt_false",
    "MD.Reader.C70_false"
   ],
   "note": "What the columns mean is proved for all rows, and that no rod is made of rows that are too short or name no class. False: such rows are no error, a null pointer is put into the list of rods and used (C70_false, C84_rod_misspelt_false); negative numbers of segments are accepted (C124_segments_false). The output file of the rod is left out."
  },
  {
   "property": "C125",
   "status": "partial",
   "theorems": [
    "MD.BodyRow.C125_columns_partial",
    "MD.BodyRow.C125_short",
    "MD.BodyRow.C125_counts",
    "MD.BodyRow.C125_space_false",
    "MD.Reader.C49_surge_false"
   ],
   "note": "What the code makes of every row with decimal numbers is proved, with any words behind, and that other numbers of numbers are refused; it is what the manual says but for drag areas of three or six numbers. False: with three or six drag areas the first is lost (C49_surge_false); spaces behind bars are accepted, the numbers are then taken for those of other columns (C125_space_false). The words of the attachment are C84. What Body::setup leaves out for coupled and fixed bodies, and the output file, are not part of the claim."
  }
 ]
}