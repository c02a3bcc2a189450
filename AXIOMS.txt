# Axioms each theorem of MANIFEST.json depends on (#print axioms)
C01 MD.IO.C01_layout: propext
C01 MD.IO.C01_roundtrip: Classical.choice, Quot.sound, propext
C01 MD.IO.C01_own_file_rejected: Classical.choice, Quot.sound, propext
C01 MD.IO.C01_save_load_system: Classical.choice, Quot.sound, propext
C01 MD.IO.C01_not_portable: Quot.sound, propext
C02 MD.IO.C02_versions: Classical.choice, Quot.sound, propext
C02 MD.IO.C02_accept_iff: Classical.choice, Quot.sound, propext
C02 MD.IO.C02_exact_length_partial: Classical.choice, Quot.sound, propext
C02 MD.IO.C02_wrapped_length: Classical.choice, Quot.sound, propext
C02 MD.IO.C02_reject_keeps_state: Classical.choice, Quot.sound, propext
C02 MD.IO.C02_mismatch_overwrites: Classical.choice, Quot.sound, propext
C02 MD.IO.C02_short_payload_ub: Classical.choice, Quot.sound, propext
C03 MD.IO.C03_normal_roundtrip_partial: Classical.choice, Quot.sound, propext
C03 MD.IO.C03_zero_roundtrip: Classical.choice, Quot.sound, propext
C03 MD.IO.C03_subnormal_lost: Classical.choice, Quot.sound, propext
C03 MD.IO.C03_all_finite_false: Classical.choice, Quot.sound, propext
C03 MD.IO.C03_infinity_hangs: Classical.choice, Quot.sound, propext
C04 MD.IO.C04_real_law: Classical.choice, Quot.sound, propext
C04 MD.IO.C04_line: Classical.choice, Quot.sound, propext
C04 MD.IO.C04_rod: Classical.choice, Quot.sound, propext
C04 MD.IO.C04_point: Classical.choice, Quot.sound, propext
C04 MD.IO.C04_body: Classical.choice, Quot.sound, propext
C04 MD.IO.C04_state: Classical.choice, Quot.sound, propext
C04 MD.IO.C04_integrator: Classical.choice, Quot.sound, propext
C04 MD.IO.C04_system: Classical.choice, Quot.sound, propext
C05 MD.IO.C05_stored_queries_partial: Classical.choice, Quot.sound, propext
C05 MD.IO.C05_unstretched_length_lost: Classical.choice, Quot.sound, propext
C05 MD.IO.C05_as_stated_false: Classical.choice, Quot.sound, propext
C06 MD.Time.C06_step_integrates_dt: Classical.choice, Quot.sound, propext
C06 MD.Time.C06_nonpositive_dt: Quot.sound, propext
C06 MD.Time.C06_fuel_irrelevant: Quot.sound, propext
C06 MD.Time.C06_nonpositive_limit_hangs: Classical.choice, Quot.sound, propext
C06 MD.Time.C06_clock: Classical.choice, Quot.sound, propext
C07 MD.Time.C07_time_advance_partial: Classical.choice, Quot.sound, propext
C07 MD.Time.C07_total_time_partial: Classical.choice, Quot.sound, propext
C07 MD.Time.C07_wilson_advance: Classical.choice, Quot.sound, propext
C07 MD.Time.C07_wilson_false: Classical.choice, Quot.sound, propext
C08 MD.Time.C08_steady_velocity_partial: Classical.choice, Quot.sound, propext
C08 MD.Time.C08_from_the_start: Classical.choice, Quot.sound, propext
C08 MD.Time.C08_startup_deficit: Classical.choice, Quot.sound, propext
C08 MD.Time.C08_auxOk_points_lines: Quot.sound, propext
C08 MD.Time.C08_newmark_startup: Classical.choice, Quot.sound, propext
C08 MD.Time.C08_as_stated_false: Classical.choice, Quot.sound, propext
C08 MD.Time.C08_anderson_early_stop_false: Classical.choice, Quot.sound, propext
C08 MD.Time.C08_rigid_ab_false: Classical.choice, Quot.sound, propext
C09 MD.Time.C09_rk2_forcing: Classical.choice, Quot.sound, propext
C09 MD.Time.C09_rk4_forcing: Classical.choice, Quot.sound, propext
C09 MD.Time.C09_rk2_linear: Classical.choice, Quot.sound, propext
C09 MD.Time.C09_rk4_linear: Classical.choice, Quot.sound, propext
C09 MD.Time.C09_heun_lags: Classical.choice, Quot.sound, propext
C09 MD.Time.C09_heun_first_order: Classical.choice, Quot.sound, propext
C09 MD.Time.C09_ab_two_point: Classical.choice, Quot.sound, propext
C09 MD.Time.C09_ab_first_order: Classical.choice, Quot.sound, propext
C10 MD.Time.C10_equilibrium_partial: Classical.choice, Quot.sound, propext
C10 MD.Time.C10_auxOk_points_lines: Quot.sound, propext
C10 MD.Time.C10_rigid_newmark_false: Classical.choice, Quot.sound, propext
C10 MD.Time.C10_stationary_partial: Classical.choice, Quot.sound, propext
C10 MD.Time.C10_stationary_rigid_false: Classical.choice, Quot.sound, propext
C10 MD.Rot.C10_stationary_turns_false: Classical.choice, Quot.sound, propext
C11 MD.Motion.C11_derivative_age_partial: Classical.choice, Quot.sound, propext
C11 MD.Motion.C11_others_every_step: Classical.choice, Quot.sound, propext
C11 MD.Scheme.C11_lab_false: Classical.choice, Quot.sound, propext
C12 MD.Layout.C12_count: Quot.sound, propext
C12 MD.Layout.C12_entries_read: Classical.choice, Quot.sound, propext
C12 MD.Layout.C12_reads_match_partial: Classical.choice, Quot.sound, propext
C12 MD.Layout.C12_pinned_false: propext
C12 MD.Layout.C12_entries_written: Quot.sound, propext
C13 MD.Layout.C13_input_block: Classical.choice, Quot.sound, propext
C13 MD.Layout.C13_output_block: Classical.choice, Quot.sound, propext
C13 MD.Layout.C13_pinned_uninitialised: Quot.sound, propext
C14 MD.Motion.C14_coupled_motion_partial: Classical.choice, Quot.sound, propext
C14 MD.Motion.C14_wilson_end: Classical.choice, Quot.sound, propext
C14 MD.Motion.C14_wilson_overshoots_false: Classical.choice, Quot.sound, propext
C15 MD.Motion.C15_one_step: Classical.choice, Quot.sound, propext
C15 MD.Motion.C15_paid_out_length: Classical.choice, Quot.sound, propext
C15 MD.Motion.C15_constant_rate: Classical.choice, Quot.sound, propext
C16 MD.Attach.C16_read_lines: Classical.choice, Quot.sound, propext
C16 MD.Attach.C16_detach: Classical.choice, Quot.sound, propext
C16 MD.Attach.C16_detach_error: Classical.choice, Quot.sound, propext
C16 MD.Attach.C16_detach_succeeds: Classical.choice, Quot.sound, propext
C16 MD.Attach.C16_always_consistent: Classical.choice, Quot.sound, propext
C17 MD.Attach.C17_at_most_once_partial: Classical.choice, Quot.sound, propext
C17 MD.Attach.C17_actual_trigger: Classical.choice, Quot.sound, propext
C17 MD.Attach.C17_as_stated_false: Classical.choice, Quot.sound, propext
C18 MD.Registry.C18_add: Classical.choice, Quot.sound, propext
C18 MD.Registry.C18_add_all: Classical.choice, Quot.sound, propext
C18 MD.Registry.C18_all_computed: Quot.sound, propext
C18 MD.Registry.C18_remove_unknown: Classical.choice, Quot.sound, propext
C18 MD.Registry.C18_remove_first_partial: Classical.choice, Quot.sound, propext
C18 MD.Registry.C18_remove_actual: Classical.choice, Quot.sound, propext
C18 MD.Registry.C18_remove_wrong_false: propext
C18 MD.Registry.C18_remove_undefined_false: Classical.choice, Quot.sound, propext
C18 MD.Registry.C18_remove_defined: Classical.choice, Quot.sound, propext
C19 MD.Attach.C19_new_point_not_simulated_false: Classical.choice, Quot.sound, propext
C19 MD.Attach.C19_release_state_partial: Classical.choice, Quot.sound, propext
C20 MD.CFL.C20_roundtrip: Classical.choice, Quot.sound, propext
C20 MD.CFL.C20_init_partial: Classical.choice, Quot.sound, propext
C20 MD.CFL.C20_cfl_ignored: Classical.choice, Quot.sound, propext
C20 MD.CFL.C20_cfl_ignored_false: Classical.choice, Quot.sound, propext
C20 MD.CFL.C20_set_roundtrip: Classical.choice, Quot.sound, propext
C21 MD.Interp.C21_monotone: Classical.choice, Quot.sound, propext
C21 MD.Interp.C21_scalar: Classical.choice, Quot.sound, propext
C21 MD.Interp.C21_tabulated: Classical.choice, Quot.sound, propext
C21 MD.Interp.C21_between: Classical.choice, Quot.sound, propext
C21 MD.Interp.C21_vector_partial: Classical.choice, Quot.sound, propext
C21 MD.Interp.C21_vector_one_datum_false: Quot.sound, propext
C21 MD.Interp.C21_vector_unsorted_false: Classical.choice, Quot.sound, propext
C21 MD.Interp.C21_inconsistent_table: Classical.choice, Quot.sound, propext
C22 MD.Seafloor.C22_depth_partial: Classical.choice, Quot.sound, propext
C22 MD.Seafloor.C22_bounds_partial: Classical.choice, Quot.sound, propext
C22 MD.Seafloor.C22_grid_points_partial: Classical.choice, Quot.sound, propext
C22 MD.Seafloor.C22_statistics_partial: Classical.choice, Quot.sound, propext
C22 MD.Seafloor.C22_incomplete_false: Classical.choice, Quot.sound, propext
C22 MD.Seafloor.C22_repeated_false: Classical.choice, Quot.sound, propext
C23 MD.Waves.C23_stretch: Classical.choice, Quot.sound, propext
C23 MD.Waves.C23_in_range: Classical.choice, Quot.sound, propext
C23 MD.Waves.C23_periodic: Classical.choice, Quot.sound, propext
C23 MD.Waves.C23_values_partial: Classical.choice, Quot.sound, propext
C23 MD.Waves.C23_continuity_false: Classical.choice, Quot.sound, propext
C24 MD.Waves.C24_order: Classical.choice, Quot.sound, propext
C24 MD.Waves.C24_rejected: Classical.choice, Quot.sound, propext
C24 MD.Waves.C24_rejected_modifies: Classical.choice, Quot.sound, propext
C24 MD.Waves.C24_c_functions: Classical.choice, Quot.sound, propext
C24 MD.Waves.C24_c_errors: Quot.sound, propext
C25 MD.Waves.C25_point: Quot.sound, propext
C25 MD.Waves.C25_node: Quot.sound, propext
C25 MD.Waves.C25_still: Quot.sound, propext
C25 MD.Waves.C25_external: Quot.sound, propext
C25 MD.Waves.C25_external_query_false: Classical.choice, Quot.sound, propext
C25 MD.Waves.C25_unified_4d_partial: Classical.choice, Quot.sound, propext
C25 MD.Waves.C25_unified_steady_partial: Classical.choice, Quot.sound, propext
C25 MD.Waves.C25_unified_dynamic_partial: Classical.choice, Quot.sound, propext
C25 MD.Waves.C25_unified_stretched_false: Classical.choice, Quot.sound, propext
C26 MD.Waves.C26_acceleration: Classical.choice, Quot.sound, propext
C26 MD.Waves.C26_returned: Classical.choice, Quot.sound, propext
C26 MD.Waves.C26_surface_partial: Classical.choice, Quot.sound, propext
C26 MD.Waves.C26_bed_partial: Classical.choice, Quot.sound, propext
C26 MD.Waves.C26_divergence_free_partial: Classical.choice, Quot.sound, propext
C26 MD.Waves.C26_reversal: Classical.choice, Quot.sound, propext
C26 MD.Waves.C26_negative_deep_false: Classical.choice, Quot.sound, propext
C26 MD.Waves.C26_stretching_false: Classical.choice, Quot.sound, propext
C27 MD.Mat.C27_energy: Classical.choice, Quot.sound, propext
C27 MD.Mat.C27_energy_point: Classical.choice, Quot.sound, propext
C27 MD.Mat.C27_momentum: Classical.choice, Quot.sound, propext
C27 MD.Mat.C27_symmetric: Classical.choice, Quot.sound, propext
C27 MD.Mat.C27_compose: Classical.choice, Quot.sound, propext
C27 MD.Mat.C27_back: Classical.choice, Quot.sound, propext
C27 MD.Mat.C27_compose_point: Classical.choice, Quot.sound, propext
C27 MD.Mat.C27_steiner: Classical.choice, Quot.sound, propext
C27 MD.Mat.C27_energy_needs_symmetry: Classical.choice, Quot.sound, propext
C28 MD.Mat.C28_rotation: Classical.choice, Quot.sound, propext
C28 MD.Mat.C28_dot: Classical.choice, Quot.sound, propext
C28 MD.Mat.C28_triple: Classical.choice, Quot.sound, propext
C28 MD.Mat.C28_sense: Classical.choice, Quot.sound, propext
C28 MD.Mat.C28_add: Classical.choice, Quot.sound, propext
C28 MD.Mat.C28_energy3: Classical.choice, Quot.sound, propext
C28 MD.Mat.C28_energy6: Classical.choice, Quot.sound, propext
C28 MD.Mat.C28_symmetric: Classical.choice, Quot.sound, propext
C28 MD.Mat.C28_compose: Classical.choice, Quot.sound, propext
C28 MD.Mat.C28_kinematics: Classical.choice, Quot.sound, propext
C29 MD.Mooring.C29_tension_damping_cancel: Classical.choice, Quot.sound, propext
C29 MD.Mooring.C29_tension_damping_moment: Classical.choice, Quot.sound, propext
C29 MD.Mooring.C29_bending_cancel: Classical.choice, Quot.sound, propext
C29 MD.Mooring.C29_bending_moment: Classical.choice, Quot.sound, propext
C29 MD.Mooring.C29_bending_power: Classical.choice, Quot.sound, propext
C29 MD.Mooring.C29_net_force: Classical.choice, Quot.sound, propext
C29 MD.Mooring.C29_net_force_pressure: Classical.choice, Quot.sound, propext
C29 MD.Mooring.C29_mass: Classical.choice, Quot.sound, propext
C29 MD.Mooring.C29_weight: Classical.choice, Quot.sound, propext
C29 MD.Mooring.C29_internal_pressure_false: Classical.choice, Quot.sound, propext
C30 MD.Mooring.C30_slack: Classical.choice, Quot.sound, propext
C30 MD.Mooring.C30_constant: Classical.choice, Quot.sound, propext
C30 MD.Mooring.C30_tabulated: Classical.choice, Quot.sound, propext
C30 MD.Mooring.C30_never_pushes: Classical.choice, Quot.sound, propext
C30 MD.Mooring.C30_increasing: Classical.choice, Quot.sound, propext
C30 MD.Mooring.C30_increasing_table: Classical.choice, Quot.sound, propext
C30 MD.Mooring.C30_reported: Classical.choice, Quot.sound, propext
C30 MD.Mooring.C30_reported_static: Classical.choice, Quot.sound, propext
C30 MD.Mooring.C30_damping_pushes: Classical.choice, Quot.sound, propext
C30 MD.Mooring.C30_output_channel_false: Classical.choice, Quot.sound, propext
C31 MD.Mooring.C31_max_partial: Classical.choice, Quot.sound, propext
C31 MD.Mooring.C31_fairlead_false: Classical.choice, Quot.sound, propext
C32 MD.Mooring.C32_line_drag: Classical.choice, Quot.sound, propext
C32 MD.Mooring.C32_constant_damping: Classical.choice, Quot.sound, propext
C32 MD.Mooring.C32_tabulated_damping_partial: Classical.choice, Quot.sound, propext
C32 MD.Mooring.C32_mirrored_table_false: Classical.choice, Quot.sound, propext
C32 MD.Mooring.C32_table_at_rest_false: Classical.choice, Quot.sound, propext
C32 MD.Rods.C32_rod_drag: Classical.choice, Quot.sound, propext
C32 MD.Bodies.C32_point_drag: Classical.choice, Quot.sound, propext
C32 MD.Bodies.C32_point_drag_power: Classical.choice, Quot.sound, propext
C32 MD.Bodies.C32_body_drag: Classical.choice, Quot.sound, propext
C32 MD.Bodies.C32_body_drag_axis: Classical.choice, Quot.sound, propext
C32 MD.Bodies.C32_body_drag_spin: Classical.choice, Quot.sound, propext
C33 MD.Mooring.C33_no_contact: Classical.choice, Quot.sound, propext
C33 MD.Mooring.C33_vanishes_without_motion: Classical.choice, Quot.sound, propext
C33 MD.Mooring.C33_opposes_motion: Classical.choice, Quot.sound, propext
C33 MD.Mooring.C33_bounded: Classical.choice, Quot.sound, propext
C33 MD.Mooring.C33_bounded_partial: Classical.choice, Quot.sound, propext
C33 MD.Mooring.C33_kinetic_limit_false: Classical.choice, Quot.sound, propext
C33 MD.Mooring.C33_normal_force_partial: Classical.choice, Quot.sound, propext
C33 MD.Mooring.C33_suction_false: Classical.choice, Quot.sound, propext
C33 MD.Mooring.C33_reported_force: Classical.choice, Quot.sound, propext
C34 MD.Mooring.C34_in_unit_interval: Classical.choice, Quot.sound, propext
C34 MD.Mooring.C34_below: Classical.choice, Quot.sound, propext
C34 MD.Mooring.C34_above: Classical.choice, Quot.sound, propext
C34 MD.Mooring.C34_across: Classical.choice, Quot.sound, propext
C34 MD.Mooring.C34_across_axis: Classical.choice, Quot.sound, propext
C34 MD.Mooring.C34_symmetric_partial: Classical.choice, Quot.sound, propext
C34 MD.Mooring.C34_waves: Classical.choice, Quot.sound, propext
C34 MD.Mooring.C34_waves_across: Classical.choice, Quot.sound, propext
C34 MD.Mooring.C34_end_at_surface_false: Classical.choice, Quot.sound, propext
C34 MD.Mooring.C34_slope_false: Classical.choice, Quot.sound, propext
C35 MD.Rods.C35_archimedes: Classical.choice, Quot.sound, propext
C35 MD.Rods.C35_centre_of_buoyancy: Classical.choice, Quot.sound, propext
C35 MD.Rods.C35_zero_length: Classical.choice, Quot.sound, propext
C36 MD.Rods.C36_inertia_partial: Classical.choice, Quot.sound, propext
C36 MD.Rods.C36_lines: Classical.choice, Quot.sound, propext
C36 MD.Rods.C36_energy_partial: Classical.choice, Quot.sound, propext
C36 MD.Rods.C36_overflow_false: Classical.choice, Quot.sound, propext
C36 MD.Rods.C36_divisor_zero: Classical.choice, Quot.sound, propext
C37 MD.Rods.C37_wetted_partial: Classical.choice, Quot.sound, propext
C37 MD.Rods.C37_dry: Classical.choice, Quot.sound, propext
C37 MD.Rods.C37_upside_down_false: Classical.choice, Quot.sound, propext
C37 MD.Rods.C37_touching_false: Classical.choice, Quot.sound, propext
C37 MD.Rods.C37_fraction_partial: Classical.choice, Quot.sound, propext
C37 MD.Rods.C37_fraction_false: Classical.choice, Quot.sound, propext
C37 MD.Rods.C37_sub_channel_false: Classical.choice, Quot.sound, propext
C38 MD.Rods.C38_state_ends: Classical.choice, Quot.sound, propext
C38 MD.Rods.C38_start_partial: Classical.choice, Quot.sound, propext
C38 MD.Rods.C38_start_false: Classical.choice, Quot.sound, propext
C38 MD.Rods.C38_example: Classical.choice, Quot.sound, propext
C39 MD.Catenary.C39_terminates: Classical.choice, Quot.sound, propext
C39 MD.Catenary.C39_positive_tension: Classical.choice, Quot.sound, propext
C39 MD.Catenary.C39_nonconvergence_never_reported: Classical.choice, Quot.sound, propext
C39 MD.Catenary.C39_jacobian: Classical.choice, Quot.sound, propext
C39 MD.Catenary.C39_regular: Classical.choice, Quot.sound, propext
C39 MD.Catenary.C39_first_node: Classical.choice, Quot.sound, propext
C39 MD.Catenary.C39_last_node: Classical.choice, Quot.sound, propext
C39 MD.Catenary.C39_equilibrium: Classical.choice, Quot.sound, propext
C39 MD.Catenary.C39_weight: Classical.choice, Quot.sound, propext
C39 MD.Catenary.C39_above_seabed: Classical.choice, Quot.sound, propext
C39 MD.Catenary.C39_ends_partial: Classical.choice, Quot.sound, propext
C39 MD.Catenary.C39_reversed: Classical.choice, Quot.sound, propext
C39 MD.Catenary.C39_reversed_tensions: Classical.choice, Quot.sound, propext
C39 MD.Catenary.C39_suspended_succeeds: Classical.choice, Quot.sound, propext
C39 MD.Catenary.C39_ends_false: Classical.choice, Quot.sound, propext
C39 MD.Catenary.C39_line_in_plane: Classical.choice, Quot.sound, propext
C39 MD.Catenary.C39_line_complete: Classical.choice, Quot.sound, propext
C39 MD.Catenary.C39_line_above_seabed: Classical.choice, Quot.sound, propext
C39 MD.Catenary.C39_too_long: Classical.choice, Quot.sound, propext
C39 MD.Catenary.C39_too_long_fails: Classical.choice, Quot.sound, propext
C39 MD.Catenary.C39_guess: Classical.choice, Quot.sound, propext
C40 MD.Bodies.C40_net_force: Classical.choice, Quot.sound, propext
C40 MD.Bodies.C40_mass: Classical.choice, Quot.sound, propext
C40 MD.Bodies.C40_order: Classical.choice, Quot.sound, propext
C40 MD.Bodies.C40_newton: Classical.choice, Quot.sound, propext
C40 MD.Bodies.C40_network: Classical.choice, Quot.sound, propext
C41 MD.Bodies.C41_point_velocity: Classical.choice, Quot.sound, propext
C41 MD.Bodies.C41_distance: Classical.choice, Quot.sound, propext
C41 MD.Bodies.C41_distance_rate: Classical.choice, Quot.sound, propext
C41 MD.Bodies.C41_velocity_is_rate: Classical.choice, Quot.sound, propext
C41 MD.Bodies.C41_rod_position: Classical.choice, Quot.sound, propext
C41 MD.Bodies.C41_rod_velocity: Classical.choice, Quot.sound, propext
C41 MD.Bodies.C41_point_power: Classical.choice, Quot.sound, propext
C41 MD.Bodies.C41_rod_power: Classical.choice, Quot.sound, propext
C41 MD.Bodies.C41_point_energy: Classical.choice, Quot.sound, propext
C41 MD.Bodies.C41_power: Classical.choice, Quot.sound, propext
C41 MD.Bodies.C41_pinned_rod: Classical.choice, Quot.sound, propext
C42 MD.Rot.C42_orthogonal: Classical.choice, Quot.sound, propext
C42 MD.Rot.C42_norm_constant: Classical.choice, Quot.sound, propext
C42 MD.Rot.C42_angular_velocity: Classical.choice, Quot.sound, propext
C42 MD.Rot.C42_euler_step: Classical.choice, Quot.sound, propext
C42 MD.Rot.C42_norm_irrelevant: Classical.choice, Quot.sound, propext
C42 MD.Rot.C42_rod: Classical.choice, Quot.sound, propext
C42 MD.Rot.C42_zero_length_rod_false: Classical.choice, Quot.sound, propext
C43 MD.Api.C43_throw: Quot.sound, propext
C43 MD.Api.C43_guarded_partial: Quot.sound, propext
C43 MD.Api.C43_codes_distinct: Quot.sound, propext
C43 MD.Api.C43_guarded_false: propext
C43 MD.Api.C43_create: propext
C43 MD.Api.C43_create_false: propext
C43 MD.Api.C43_step_integrator: Quot.sound, propext
C43 MD.Api.C43_step_output: Quot.sound, propext
C43 MD.Api.C43_step_ok: propext
C43 MD.Api.C43_step_partial: Quot.sound, propext
C43 MD.Api.C43_init_ok: Classical.choice, Quot.sound, propext
C43 MD.Api.C43_init_escapes: Classical.choice, Quot.sound, propext
C43 MD.Api.C43_log_file_false: propext
C44 MD.Api.C44_object: Quot.sound, propext
C44 MD.Api.C44_object_inj: Quot.sound, propext
C44 MD.Api.C44_attached: Quot.sound, propext
C44 MD.Api.C44_node: Quot.sound, propext
C44 MD.Api.C44_node_tension: Classical.choice, Quot.sound, propext
C44 MD.Api.C44_zero_segments_false: propext
C44 MD.Api.C44_legacy_fairten: Classical.choice, Quot.sound, propext
C44 MD.Api.C44_legacy_fairten_false: Quot.sound, propext
C45 MD.Api.C45_codes: propext
C45 MD.Api.C45_failed_init: propext
C45 MD.Api.C45_never_dangling: Classical.choice, Quot.sound, propext
C45 MD.Api.C45_instances_partial: Classical.choice, Quot.sound, propext
C45 MD.Api.C45_at_most_one_partial: Classical.choice, Quot.sound, propext
C45 MD.Api.C45_at_most_one_false: none
C45 MD.Api.C45_leak_is_permanent: Classical.choice, Quot.sound, propext
C46 MD.Output.C46_row_iff: Classical.choice, Quot.sound, propext
C46 MD.Output.C46_every_step: Quot.sound, propext
C46 MD.Output.C46_count: Classical.choice, Quot.sound, propext
C46 MD.Output.C46_at_most: Classical.choice, Quot.sound, propext
C46 MD.Output.C46_ordered: Classical.choice, Quot.sound, propext
C46 MD.Output.C46_every_row: Quot.sound, propext
C46 MD.Output.C46_start_false: Classical.choice, Quot.sound, propext
C46 MD.Output.C46_null_interval_false: Classical.choice, Quot.sound, propext
C47 MD.Output.C47_line: Classical.choice, Quot.sound, propext
C47 MD.Output.C47_line_length: Quot.sound, propext
C47 MD.Output.C47_line_flags_false: Classical.choice, Quot.sound, propext
C47 MD.Output.C47_line_flags_partial: Classical.choice, Quot.sound, propext
C47 MD.Output.C47_rod: Classical.choice, Quot.sound, propext
C47 MD.Output.C47_rod_flags_false: Classical.choice, Quot.sound, propext
C47 MD.Output.C47_body_partial: propext
C47 MD.Output.C47_body_false: none
C48 MD.Reader.C48_abscissas_partial: Classical.choice, Quot.sound, propext
C48 MD.Reader.C48_accepted_partial: Classical.choice, Quot.sound, propext
C48 MD.Reader.C48_malformed: Classical.choice, Quot.sound, propext
C48 MD.Reader.C48_missing: Classical.choice, Quot.sound, propext
C48 MD.Reader.C48_ordinates_false: Classical.choice, Quot.sound, propext
C48 MD.Reader.C48_newline_false: Classical.choice, Quot.sound, propext
C48 MD.Reader.C48_constant: Classical.choice, Quot.sound, propext
C48 MD.Reader.C48_file_name_false: Classical.choice, Quot.sound, propext
C48 MD.Reader.C48_number: Classical.choice, Quot.sound, propext
C48 MD.Text.C48_written: Classical.choice, Quot.sound, propext
C49 MD.Reader.C49_one_two_partial: Classical.choice, Quot.sound, propext
C49 MD.Reader.C49_three_six_partial: Classical.choice, Quot.sound, propext
C49 MD.Reader.C49_surge_false: Classical.choice, Quot.sound, propext
C49 MD.Reader.C49_rejected: Classical.choice, Quot.sound, propext
C49 MD.Reader.C49_others: Classical.choice, Quot.sound, propext
C50 MD.Reader.C50_contiguous_partial: Classical.choice, Quot.sound, propext
C50 MD.Reader.C50_disjoint: Classical.choice, Quot.sound, propext
C50 MD.Reader.C50_zero_segments_false: Classical.choice, Quot.sound, propext
C50 MD.Reader.C50_failure_false: Classical.choice, Quot.sound, propext
C51 MD.Reader.C51_section: Classical.choice, Quot.sound, propext
C51 MD.Reader.C51_terminated_partial: Classical.choice, Quot.sound, propext
C51 MD.Reader.C51_last_line_partial: Classical.choice, Quot.sound, propext
C51 MD.Reader.C51_section_iff: Classical.choice, Quot.sound, propext
C51 MD.Reader.C51_options_false: Classical.choice, Quot.sound, propext
C51 MD.Reader.C51_header_false: Classical.choice, Quot.sound, propext
C52 MD.Text.C52_split_words: Quot.sound, propext
C52 MD.Text.C52_split_unique: Quot.sound, propext
C52 MD.Text.C52_tokens: Quot.sound, propext
C52 MD.Text.C52_nothing_lost: Classical.choice, Quot.sound, propext
C52 MD.Text.C52_split_join: Quot.sound, propext
C52 MD.Text.C52_join_split: Quot.sound, propext
C52 MD.Text.C52_tabs_false: Classical.choice, Quot.sound, propext
C52 MD.Text.C52_mixed_false: Classical.choice, Quot.sound, propext
C52 MD.Text.C52_blank_partial: Classical.choice, Quot.sound, propext
C52 MD.Text.C52_rtrim: propext
C52 MD.Text.C52_decompose_concat: Classical.choice, Quot.sound, propext
C52 MD.Text.C52_decompose_word: Classical.choice, Quot.sound, propext
C52 MD.Text.C52_characters: Classical.choice, Quot.sound, propext
C52 MD.Text.C52_case: Classical.choice, Quot.sound, propext
C53 MD.Log.C53_terminal: Classical.choice, Quot.sound, propext
C53 MD.Log.C53_levels: Quot.sound, propext
C53 MD.Log.C53_file: Classical.choice, Quot.sound, propext
C53 MD.Log.C53_writeLog: Classical.choice, Quot.sound, propext
C54 MD.Mat.C54_false: Classical.choice, Quot.sound, propext
C54 MD.Mat.C54_rows_partial: Quot.sound, propext
C54 MD.Mat.C54_inertia_lost: Quot.sound, propext
C54 MD.Mat.C54_mat3: Quot.sound, propext
C54 MD.Mat.C54_null: none
C55 MD.Scheme.C55_case: Classical.choice, Quot.sound, propext
C55 MD.Scheme.C55_documented: Classical.choice, Quot.sound, propext
C55 MD.Scheme.C55_unknown: Classical.choice, Quot.sound, propext
C55 MD.Scheme.C55_rejected: Classical.choice, Quot.sound, propext
C55 MD.Scheme.C55_garbage_false: Classical.choice, Quot.sound, propext
C55 MD.Scheme.C55_negative_false: Classical.choice, Quot.sound, propext
C55 MD.Scheme.C55_escapes_false: Classical.choice, Quot.sound, propext
C55 MD.Scheme.C55_state_partial: Classical.choice, Quot.sound, propext
C55 MD.Scheme.C55_time_false: Classical.choice, Quot.sound, propext
C55 MD.Scheme.C55_queries_false: Classical.choice, Quot.sound, propext
C55 MD.Scheme.C55_flow_false: Classical.choice, Quot.sound, propext
C55 MD.Scheme.C55_init_false: Classical.choice, Quot.sound, propext
C56 MD.Api.C56_layout: Classical.choice, Quot.sound, propext
C56 MD.Api.C56_too_many: Quot.sound, propext
C56 MD.Api.C56_null: propext
C56 MD.Mooring.C56_values_partial: Classical.choice, Quot.sound, propext
C56 MD.Mooring.C56_vertical_false: Classical.choice, Quot.sound, propext
C57 MD.IC.C57_success_partial: Classical.choice, Quot.sound, propext
C57 MD.IC.C57_failure_false: Classical.choice, Quot.sound, propext
C57 MD.IC.C57_zero_factor_false: Quot.sound, propext
C57 MD.IC.C57_depth_false: Quot.sound, propext
C57 MD.IC.C57_interval_false: Classical.choice, Quot.sound, propext
C58 MD.Waves.C58_resample: Classical.choice, Quot.sound, propext
C58 MD.Waves.C58_negative: Classical.choice, Quot.sound, propext
C59 MD.Waves.C59_lattice_partial: Classical.choice, Quot.sound, propext
C59 MD.Waves.C59_one_false: Classical.choice, Quot.sound, propext
C59 MD.Waves.C59_zero_false: Quot.sound, propext
C60 MD.Waves.C60_rows_partial: Quot.sound, propext
C60 MD.Waves.C60_first_row_ignored_false: Quot.sound, propext
C60 MD.Waves.C60_unknown_coordinates_false: Classical.choice, Quot.sound, propext
C61 MD.Waves.C61_wave_number: Classical.choice, Quot.sound, propext
C61 MD.Waves.C61_dispersion: Classical.choice, Quot.sound, propext
C61 MD.Waves.C61_solution: Classical.choice, Quot.sound, propext
C62 MD.Rot.C62_orMat_rotation: Classical.choice, Quot.sound, propext
C62 MD.Rot.C62_input_angles: Classical.choice, Quot.sound, propext
C62 MD.Rot.C62_reported_angles: Classical.choice, Quot.sound, propext
C62 MD.Rot.C62_roundtrip_orientation: Classical.choice, Quot.sound, propext
C62 MD.Rot.C62_range: Classical.choice, Quot.sound, propext
C62 MD.Rot.C62_roundtrip_angles: Classical.choice, Quot.sound, propext
C62 MD.Rot.C62_other_angles: Classical.choice, Quot.sound, propext
C63 MD.Rot.C63_rate: Classical.choice, Quot.sound, propext
C63 MD.Rot.C63_false: Classical.choice, Quot.sound, propext
C63 MD.Rot.C63_partial: Classical.choice, Quot.sound, propext
C63 MD.Rot.C63_single_axis_partial: Classical.choice, Quot.sound, propext
C63 MD.Rot.C63_rigid: Classical.choice, Quot.sound, propext
C64 MD.Mooring.C64_pinned_partial: Classical.choice, Quot.sound, propext
C64 MD.Mooring.C64_clamped_false: Classical.choice, Quot.sound, propext
C65 MD.Mooring.C65_set_get: Classical.choice, Quot.sound, propext
C65 MD.Mooring.C65_set_tension: Classical.choice, Quot.sound, propext
C65 MD.Mooring.C65_query_false: Classical.choice, Quot.sound, propext
C66 MD.Rods.C66_floating_partial: Classical.choice, Quot.sound, propext
C66 MD.Rods.C66_inclined_partial: Classical.choice, Quot.sound, propext
C66 MD.Rods.C66_dipped_false: Classical.choice, Quot.sound, propext
C67 MD.Rods.C67_free_rod_partial: Classical.choice, Quot.sound, propext
C67 MD.Rods.C67_free_rod_false: Classical.choice, Quot.sound, propext
C67 MD.Bodies.C67_body_force_partial: Classical.choice, Quot.sound, propext
C67 MD.Bodies.C67_body_added_mass_false: Classical.choice, Quot.sound, propext
C67 MD.Bodies.C67_body_moment_iff: Classical.choice, Quot.sound, propext
C67 MD.Bodies.C67_body_moment_partial: Classical.choice, Quot.sound, propext
C67 MD.Bodies.C67_body_moment_false: Classical.choice, Quot.sound, propext
C67 MD.Bodies.C67_body_energy: Classical.choice, Quot.sound, propext
C68 MD.Bodies.C68_pin_moment_false: Classical.choice, Quot.sound, propext
C68 MD.Bodies.C68_pin_moment_partial: Classical.choice, Quot.sound, propext
C69 MD.Bodies.C69_coupled_force: Classical.choice, Quot.sound, propext
C69 MD.Bodies.C69_pinned_force_partial: Classical.choice, Quot.sound, propext
C69 MD.Bodies.C69_coupled_moment_partial: Classical.choice, Quot.sound, propext
C69 MD.Bodies.C69_coupled_moment_false: Classical.choice, Quot.sound, propext
C70 MD.Reader.C70_partial: Quot.sound, propext
C70 MD.Reader.C70_fields: Classical.choice, Quot.sound, propext
C70 MD.Reader.C70_false: propext
C70 MD.Reader.C70_types: Quot.sound, propext
C71 MD.IC.C71_converged_partial: Classical.choice, Quot.sound, propext
C71 MD.IC.C71_not_converged: Classical.choice, Quot.sound, propext
C71 MD.IC.C71_terminates: Classical.choice, Quot.sound, propext
C71 MD.IC.C71_unchecked_false: Classical.choice, Quot.sound, propext
C71 MD.IC.C71_window_false: Classical.choice, Quot.sound, propext
C72 MD.Channel.C72_documented: Classical.choice, Quot.sound, propext
C72 MD.Channel.C72_filled: Quot.sound, propext
C72 MD.Channel.C72_fairten: Classical.choice, Quot.sound, propext
C72 MD.Channel.C72_anchten: Classical.choice, Quot.sound, propext
C72 MD.Channel.C72_unknown: Classical.choice, Quot.sound, propext
C72 MD.Channel.C72_object_false: Classical.choice, Quot.sound, propext
C72 MD.Channel.C72_node_false: Classical.choice, Quot.sound, propext
C72 MD.Channel.C72_blank_false: Classical.choice, Quot.sound, propext
C72 MD.Channel.C72_titles_false: Classical.choice, Quot.sound, propext
C72 MD.Channel.C72_letters_false: Classical.choice, Quot.sound, propext
C72 MD.Channel.C72_codes: propext
C73 MD.FFT.C73_complex_transform: Classical.choice, Quot.sound, propext
C73 MD.FFT.C73_forward_transform: Classical.choice, Quot.sound, propext
C73 MD.FFT.C73_inverse_transform: Classical.choice, Quot.sound, propext
C73 MD.FFT.C73_round_trip: Classical.choice, Quot.sound, propext
C73 MD.FFT.C73_factor_table: Classical.choice, Quot.sound, propext
C74 MD.Waves.C74_samples: Classical.choice, Quot.sound, propext
C74 MD.Waves.C74_linear_theory: Classical.choice, Quot.sound, propext
C74 MD.Waves.C74_momentum: Classical.choice, Quot.sound, propext
C74 MD.Waves.C74_surface_pressure: Classical.choice, Quot.sound, propext
C74 MD.Waves.C74_pressure_partial: Classical.choice, Quot.sound, propext
C75 MD.Waves.C75_elevation_partial: Classical.choice, Quot.sound, propext
C75 MD.Waves.C75_cut_false: Classical.choice, Quot.sound, propext
C75 MD.Waves.C75_short_false: Classical.choice, Quot.sound, propext
C76 MD.Waves.C76_spectrum_partial: Classical.choice, Quot.sound, propext
C76 MD.Waves.C76_even_spacing: Classical.choice, Quot.sound, propext
C76 MD.Waves.C76_phase_false: Classical.choice, Quot.sound, propext
C77 MD.Waves.C77_steady_partial: Classical.choice, Quot.sound, propext
C77 MD.Waves.C77_dynamic_partial: Classical.choice, Quot.sound, propext
C77 MD.Waves.C77_descending_false: Classical.choice, Quot.sound, propext
C77 MD.Waves.C77_uneven_false: Classical.choice, Quot.sound, propext
C77 MD.Waves.C77_after_end_false: Classical.choice, Quot.sound, propext
C77 MD.Waves.C77_one_time_false: Quot.sound, propext
C78 MD.MovingWater.C78_line_drag: Classical.choice, Quot.sound, propext
C78 MD.MovingWater.C78_line_inertia: Classical.choice, Quot.sound, propext
C78 MD.MovingWater.C78_rod_drag: Classical.choice, Quot.sound, propext
C78 MD.MovingWater.C78_rod_node: Classical.choice, Quot.sound, propext
C78 MD.MovingWater.C78_rod: Classical.choice, Quot.sound, propext
C78 MD.MovingWater.C78_point_false: Classical.choice, Quot.sound, propext
C78 MD.MovingWater.C78_body_false: Classical.choice, Quot.sound, propext
C79 MD.Options.C79_options: Classical.choice, Quot.sound, propext
C79 MD.Options.C79_documented: Classical.choice, Quot.sound, propext
C79 MD.Options.C79_order: Classical.choice, Quot.sound, propext
C79 MD.Options.C79_default_partial: Classical.choice, Quot.sound, propext
C79 MD.Options.C79_default_false: Classical.choice, Quot.sound, propext
C79 MD.Options.C79_failure: Classical.choice, Quot.sound, propext
C79 MD.Options.C79_garbage_false: Classical.choice, Quot.sound, propext
C79 MD.Options.C79_zero: Classical.choice, Quot.sound, propext
C79 MD.Options.C79_depth: Classical.choice, Quot.sound, propext
C79 MD.Options.C79_depth_partial: Classical.choice, Quot.sound, propext
C79 MD.Options.C79_depth_false: Classical.choice, Quot.sound, propext
C80 MD.Options.C80_split: Classical.choice, Quot.sound, propext
C80 MD.Options.C80_place: Classical.choice, Quot.sound, propext
C80 MD.Options.C80_distinct: Classical.choice, Quot.sound, propext
C80 MD.Options.C80_input_partial: Classical.choice, Quot.sound, propext
C80 MD.Options.C80_input_false: Classical.choice, Quot.sound, propext
C80 MD.Options.C80_shared_false: Classical.choice, Quot.sound, propext
C81 MD.Time.C81_ends: Classical.choice, Quot.sound, propext
C81 MD.Time.C81_velocities: Classical.choice, Quot.sound, propext
C81 MD.Time.C81_increment: Classical.choice, Quot.sound, propext
C81 MD.Time.C81_residual: Classical.choice, Quot.sound, propext
C81 MD.Time.C81_stagnation_false: Classical.choice, Quot.sound, propext
C81 MD.Time.C81_rotation_false: Classical.choice, Quot.sound, propext
C81 MD.Mooring.LineType.C81_relative_length_false: Classical.choice, Quot.sound, propext
C82 MD.Mooring.LineType.C82_columns: Classical.choice, Quot.sound, propext
C82 MD.Mooring.LineType.C82_columns_fail: Classical.choice, Quot.sound, propext
C82 MD.Mooring.LineType.C82_length: Classical.choice, Quot.sound, propext
C82 MD.Mooring.LineType.C82_mass: Classical.choice, Quot.sound, propext
C82 MD.Mooring.LineType.C82_volume: Classical.choice, Quot.sound, propext
C82 MD.Mooring.LineType.C82_weight: Classical.choice, Quot.sound, propext
C82 MD.Mooring.LineType.C82_stiffness: Classical.choice, Quot.sound, propext
C82 MD.Mooring.LineType.C82_stiffness_table: Classical.choice, Quot.sound, propext
C82 MD.Mooring.LineType.C82_damping: Classical.choice, Quot.sound, propext
C82 MD.Mooring.LineType.C82_damping_ratio: Classical.choice, Quot.sound, propext
C82 MD.Mooring.LineType.C82_damping_table: Classical.choice, Quot.sound, propext
C82 MD.Mooring.LineType.C82_hydrodynamics: Classical.choice, Quot.sound, propext
C82 MD.Rods.RodType.C82_rod_columns: Classical.choice, Quot.sound, propext
C82 MD.Rods.RodType.C82_rod_columns_fail: Classical.choice, Quot.sound, propext
C82 MD.Rods.RodType.C82_rod_mass: Classical.choice, Quot.sound, propext
C82 MD.Rods.RodType.C82_rod_weight: Classical.choice, Quot.sound, propext
C82 MD.Rods.RodType.C82_rod_hydrodynamics: Classical.choice, Quot.sound, propext
C83 MD.Rods.Zero.C83_nothing_added: Classical.choice, Quot.sound, propext
C83 MD.Rods.Zero.C83_coupled_dry: Classical.choice, Quot.sound, propext
C83 MD.Rods.Zero.C83_axis: Classical.choice, Quot.sound, propext
C83 MD.Rods.Zero.C83_axis_all: Classical.choice, Quot.sound, propext
C83 MD.Rods.Zero.C83_joint_partial: Classical.choice, Quot.sound, propext
C83 MD.Rods.Zero.C83_joint_resultant_partial: Classical.choice, Quot.sound, propext
C83 MD.Rods.Zero.C83_joint_false: Classical.choice, Quot.sound, propext
C83 MD.Rods.Zero.C83_clamp_false: Classical.choice, Quot.sound, propext
C83 MD.Rods.Zero.C83_table_false: Classical.choice, Quot.sound, propext
C83 MD.Whole.C83_gear: Classical.choice, Quot.sound, propext
C84 MD.Words.C84_case: Classical.choice, Quot.sound, propext
C84 MD.Words.C84_point_words: Classical.choice, Quot.sound, propext
C84 MD.Words.C84_rod_words: Classical.choice, Quot.sound, propext
C84 MD.Words.C84_body_words: Classical.choice, Quot.sound, propext
C84 MD.Words.C84_on_body: Classical.choice, Quot.sound, propext
C84 MD.Words.C84_line_ends: Classical.choice, Quot.sound, propext
C84 MD.Words.C84_ends_exist: Classical.choice, Quot.sound, propext
C84 MD.Words.C84_system: Classical.choice, Quot.sound, propext
C84 MD.Words.C84_accepted: Classical.choice, Quot.sound, propext
C84 MD.Words.C84_ids_partial: Classical.choice, Quot.sound, propext
C84 MD.Words.C84_body_misspelt_false: Classical.choice, Quot.sound, propext
C84 MD.Words.C84_rod_misspelt_false: Classical.choice, Quot.sound, propext
C84 MD.Words.C84_suffix_false: Classical.choice, Quot.sound, propext
C84 MD.Words.C84_ids_false: Classical.choice, Quot.sound, propext
C85 MD.Rods.C85_righting_partial: Classical.choice, Quot.sound, propext
C85 MD.Rods.C85_moment_partial: Classical.choice, Quot.sound, propext
C85 MD.Rods.C85_righting_false: Classical.choice, Quot.sound, propext
C86 MD.Rods.C86_force: Classical.choice, Quot.sound, propext
C87 MD.Rods.C87_pressure: Classical.choice, Quot.sound, propext
C87 MD.Rods.C87_centre: Classical.choice, Quot.sound, propext
C87 MD.Rods.C87_clear: Classical.choice, Quot.sound, propext
C87 MD.Rods.C87_push_partial: Classical.choice, Quot.sound, propext
C87 MD.Rods.C87_suction_false: Classical.choice, Quot.sound, propext
C87 MD.Rods.C87_friction_false: Classical.choice, Quot.sound, propext
C87 MD.Rods.C87_zero_length_false: Classical.choice, Quot.sound, propext
C87 MD.Rods.C87_surface_false: Classical.choice, Quot.sound, propext
C88 MD.WaterModes.C88_modes: Classical.choice, Quot.sound, propext
C88 MD.WaterModes.C88_refused_partial: Quot.sound, propext
C88 MD.WaterModes.C88_unimplemented_false: none
C88 MD.WaterModes.C88_ignored_false: Quot.sound, propext
C88 MD.WaterModes.C88_air_false: Classical.choice, Quot.sound, propext
C89 MD.Time.C89_solution: Classical.choice, Quot.sound, propext
C89 MD.Time.C89_substeps_partial: Classical.choice, Quot.sound, propext
C89 MD.Time.C89_limit_partial: Classical.choice, Quot.sound, propext
C89 MD.Time.C89_factor: Classical.choice, Quot.sound, propext
C89 MD.Time.C89_aca_factor: Classical.choice, Quot.sound, propext
C89 MD.Time.C89_spring_false: Classical.choice, Quot.sound, propext
C89 MD.Time.C89_damper_false: Classical.choice, Quot.sound, propext
C89 MD.Time.C89_aca_factor_false: Classical.choice, Quot.sound, propext
C90 MD.Time.C90_positions: Quot.sound, propext
C90 MD.Time.C90_force_time: Classical.choice, Quot.sound, propext
C90 MD.Time.C90_call_partial: Classical.choice, Quot.sound, propext
C90 MD.Time.C90_old_forces: Quot.sound, propext
C90 MD.Time.C90_heun_forces: Quot.sound, propext
C90 MD.Time.C90_consistent_false: Classical.choice, Quot.sound, propext
C90 MD.Time.watched_step: Classical.choice, Quot.sound, propext
C91 MD.Mooring.LineType.C91_node_force: Classical.choice, Quot.sound, propext
C91 MD.Mooring.LineType.C91_node_mass: Classical.choice, Quot.sound, propext
C91 MD.Mooring.LineType.C91_mode: Classical.choice, Quot.sound, propext
C91 MD.Mooring.LineType.C91_damping_ratio: Classical.choice, Quot.sound, propext
C91 MD.Mooring.LineType.C91_highest: Classical.choice, Quot.sound, propext
C91 MD.Mooring.LineType.C91_cfl_false: Classical.choice, Quot.sound, propext
C92 MD.Time.C92_step: Classical.choice, Quot.sound, propext
C92 MD.Time.C92_run: Classical.choice, Quot.sound, propext
C92 MD.Time.C92_stable: Classical.choice, Quot.sound, propext
C92 MD.Time.C92_unstable: Classical.choice, Quot.sound, propext
C92 MD.Time.C92_undamped: Classical.choice, Quot.sound, propext
C92 MD.Time.C92_critical: Classical.choice, Quot.sound, propext
C92 MD.Time.C92_rk2_safe: Classical.choice, Quot.sound, propext
C92 MD.Time.C92_cfl_step: Classical.choice, Quot.sound, propext
C92 MD.Time.C92_default_false: Classical.choice, Quot.sound, propext
C93 MD.Mooring.C93_pressure_size: Classical.choice, Quot.sound, propext
C93 MD.Mooring.C93_pressure_direction: Classical.choice, Quot.sound, propext
C93 MD.Mooring.C93_pressure_force: Classical.choice, Quot.sound, propext
C93 MD.Mooring.C93_pressure_resultant: Classical.choice, Quot.sound, propext
C93 MD.Mooring.C93_bending_table: Classical.choice, Quot.sound, propext
C93 MD.Mooring.C93_end_moment: Classical.choice, Quot.sound, propext
C93 MD.Mooring.kurv_EI: Classical.choice, Quot.sound, propext
C94 MD.Coupled.C94_backward: Quot.sound, propext
C94 MD.Coupled.C94_kinematics: Quot.sound, propext
C94 MD.Coupled.C94_ratio: Classical.choice, Quot.sound, propext
C94 MD.Coupled.C94_uniform: Classical.choice, Quot.sound, propext
C94 MD.Coupled.C94_first_false: Quot.sound, propext
C94 MD.Coupled.C94_no_time: Quot.sound, propext
C94 MD.Coupled.C94_mean_value: Classical.choice, Quot.sound, propext
C94 MD.Bodies.C94_pinned_body_partial: Classical.choice, Quot.sound, propext
C94 MD.Bodies.C94_coupled_pinned_rod_partial: Classical.choice, Quot.sound, propext
C94 MD.Bodies.C94_coupled_pinned_rod_iff: Classical.choice, Quot.sound, propext
C94 MD.Bodies.C94_pinned_rod_false: Classical.choice, Quot.sound, propext
C94 MD.Bodies.C94_pinned_rod_partial: Classical.choice, Quot.sound, propext
C95 MD.Py.C95_reach: Classical.choice, Quot.sound, propext
C95 MD.Py.C95_complete: propext
C95 MD.Py.C95_arguments: propext
C95 MD.Py.C95_instance: none
C95 MD.Py.C95_instance_false: none
C95 MD.Py.C95_waves_false: propext
C95 MD.Py.C95_names_false: propext
C95 MD.Py.C95_names_never: propext
C95 MD.Py.C95_other_false: propext
C95 MD.Py.C95_step: Classical.choice, Quot.sound, propext
C95 MD.Py.C95_step_refused: Quot.sound, propext
C95 MD.Py.C95_init: Classical.choice, Quot.sound, propext
C95 MD.Py.C95_init_raises_false: Classical.choice, Quot.sound, propext
C95 MD.Py.C95_ext_wave: Classical.choice, Quot.sound, propext
C95 MD.Py.C95_ext_wave_n_false: propext
C95 MD.Py.C95_ext_wave_n_partial: propext
C95 MD.Py.C95_press: Classical.choice, Quot.sound, propext
C95 MD.Py.C95_refused_leak_false: Quot.sound, propext
C95 MD.Py.C95_failed_leak_false: Classical.choice, Quot.sound, propext
C95 MD.Py.C95_item_leak_false: Classical.choice, Quot.sound, propext
C95 MD.Py.C95_none_false: Quot.sound, propext
C95 MD.Py.C95_none_used_up: Quot.sound, propext
C95 MD.Py.C95_closed_false: propext
C95 MD.Py.C95_close_other: propext
C95 MD.Py.C95_deserialize_false: propext
C95 MD.Py.C95_deserialize: propext
C95 MD.Py.C95_press_bend: Quot.sound, propext
C95 MD.Py.C95_press_bend_false: Classical.choice, Quot.sound, propext
C96 MD.Foreign.C96_received: Quot.sound, propext
C96 MD.Foreign.C96_declared: Classical.choice, Quot.sound, propext
C96 MD.Foreign.C96_fortran: Classical.choice, Quot.sound, propext
C96 MD.Foreign.C96_verbosity_false: none
C96 MD.Foreign.C96_linked: none
C96 MD.Foreign.C96_reference_false: propext
C96 MD.Foreign.C96_press_bend_false: Classical.choice, Quot.sound, propext
C96 MD.Foreign.C96_stiffness_false: propext
C96 MD.Foreign.C96_ext_wave_partial: propext
C96 MD.Foreign.C96_waves_partial: propext
C96 MD.Foreign.C96_waves_false: propext
C96 MD.Foreign.C96_fast_false: Quot.sound, propext
C96 MD.Foreign.C96_rust: Quot.sound, propext
C96 MD.Foreign.C96_rust_waves_false: propext
C96 MD.Foreign.C96_matlab_step: Quot.sound, propext
C96 MD.Foreign.C96_matlab_error: Quot.sound, propext
C96 MD.Foreign.C96_matlab_init: Classical.choice, Quot.sound, propext
C96 MD.Foreign.C96_matlab_short_false: Quot.sound, propext
C97 MD.SeaFiles.C97_place: Classical.choice, Quot.sound, propext
C97 MD.SeaFiles.C97_place_false: Classical.choice, Quot.sound, propext
C97 MD.SeaFiles.C97_missing: Classical.choice, Quot.sound, propext
C97 MD.SeaFiles.C97_spectrum: Classical.choice, Quot.sound, propext
C97 MD.SeaFiles.C97_spectrum_refused: Classical.choice, Quot.sound, propext
C97 MD.SeaFiles.C97_direction_false: Classical.choice, Quot.sound, propext
C97 MD.SeaFiles.C97_elevation: Classical.choice, Quot.sound, propext
C97 MD.SeaFiles.C97_elevation_refused: Classical.choice, Quot.sound, propext
C97 MD.SeaFiles.C97_empty_false: Classical.choice, Quot.sound, propext
C97 MD.SeaFiles.C97_steady: Classical.choice, Quot.sound, propext
C97 MD.SeaFiles.C97_steady_refused: Classical.choice, Quot.sound, propext
C97 MD.SeaFiles.C97_dynamic: Classical.choice, Quot.sound, propext
C97 MD.SeaFiles.C97_dynamic_refused: Classical.choice, Quot.sound, propext
C97 MD.SeaFiles.C97_short_line_false: Classical.choice, Quot.sound, propext
C97 MD.SeaFiles.C97_grid: Classical.choice, Quot.sound, propext
C97 MD.SeaFiles.C97_grid_false: Classical.choice, Quot.sound, propext
C97 MD.SeaFiles.C97_many_false: Classical.choice, Quot.sound, propext
C97 MD.SeaFiles.C97_4d_partial: Classical.choice, Quot.sound, propext
C97 MD.SeaFiles.C97_first_line_false: Classical.choice, Quot.sound, propext
C97 MD.SeaFiles.C97_example_false: Classical.choice, Quot.sound, propext
C98 MD.State.C98_every: Quot.sound, propext
C98 MD.State.C98_components: Quot.sound, propext
C98 MD.State.C98_add: Quot.sound, propext
C98 MD.State.C98_rate_difference: Quot.sound, propext
C98 MD.State.C98_state_difference_partial: Quot.sound, propext
C98 MD.State.C98_state_difference_false: Quot.sound, propext
C98 MD.State.C98_scale: Classical.choice, Quot.sound, propext
C98 MD.State.C98_mix: Quot.sound, propext
C98 MD.State.C98_predictors: Quot.sound, propext
C98 MD.State.C98_sizes: Classical.choice, Quot.sound, propext
C98 MD.State.C98_mix_sizes_false: Quot.sound, propext
C98 MD.State.C98_ragged_line: Quot.sound, propext
C98 MD.State.C98_expressions: Classical.choice, Quot.sound, propext
C98 MD.State.C98_schemes: Classical.choice, Quot.sound, propext
C99 MD.Frame.C99_line: Classical.choice, Quot.sound, propext
C99 MD.Frame.C99_point: Classical.choice, Quot.sound, propext
C99 MD.Frame.C99_point_acc: Classical.choice, Quot.sound, propext
C99 MD.Frame.C99_body_point: Classical.choice, Quot.sound, propext
C99 MD.Frame.C99_rod_partial: Classical.choice, Quot.sound, propext
C99 MD.Frame.C99_rod_acc_partial: Classical.choice, Quot.sound, propext
C99 MD.Frame.C99_body_partial: Classical.choice, Quot.sound, propext
C99 MD.Frame.C99_body_acc_partial: Classical.choice, Quot.sound, propext
C99 MD.Frame.C99_kinematics: Classical.choice, Quot.sound, propext
C99 MD.Frame.C99_step: Classical.choice, Quot.sound, propext
C99 MD.Frame.C99_call: Classical.choice, Quot.sound, propext
C99 MD.Frame.C99_machine: Classical.choice, Quot.sound, propext
C99 MD.Frame.C99_simulation_partial: Classical.choice, Quot.sound, propext
C99 MD.Frame.C99_world: Classical.choice, Quot.sound, propext
C99 MD.Frame.C99_start_partial: Classical.choice, Quot.sound, propext
C99 MD.Frame.C99_reported: Classical.choice, Quot.sound, propext
C99 MD.Frame.C99_returned: Classical.choice, Quot.sound, propext
C99 MD.Frame.C99_rod_false: Classical.choice, Quot.sound, propext
C99 MD.Frame.C99_anderson_false: Classical.choice, Quot.sound, propext
C99 MD.Whole.C99_gear_partial: Classical.choice, Quot.sound, propext
C99 MD.Whole.C99_gear_shift_partial: Classical.choice, Quot.sound, propext
C99 MD.Whole.C99_whole_partial: Classical.choice, Quot.sound, propext
C99 MD.Whole.C99_whole_shift_partial: Classical.choice, Quot.sound, propext
C100 MD.Reverse.C100_mass_partial: Classical.choice, Quot.sound, propext
C100 MD.Reverse.C100_force_partial: Classical.choice, Quot.sound, propext
C100 MD.Reverse.C100_ends_partial: Classical.choice, Quot.sound, propext
C100 MD.Reverse.C100_output_partial: Classical.choice, Quot.sound, propext
C100 MD.Reverse.C100_tension: Classical.choice, Quot.sound, propext
C100 MD.Reverse.C100_fairlead: Classical.choice, Quot.sound, propext
C100 MD.Reverse.C100_exists: Classical.choice, Quot.sound, propext
C100 MD.Reverse.C100_max_false: Classical.choice, Quot.sound, propext
C100 MD.Reverse.C100_surface_false: Classical.choice, Quot.sound, propext
C100 MD.Relabel.C100_simulation_partial: Classical.choice, Quot.sound, propext
C100 MD.Relabel.C100_world: Classical.choice, Quot.sound, propext
C101 MD.Relabel.C101_simulation: Classical.choice, Quot.sound, propext
C101 MD.Relabel.C101_returned: Classical.choice, Quot.sound, propext
C101 MD.Relabel.C101_world: Classical.choice, Quot.sound, propext
C101 MD.Whole.C101_whole: Classical.choice, Quot.sound, propext
C101 MD.Whole.C101_gear: Classical.choice, Quot.sound, propext
C101 MD.Whole.C101_zero_rods_false: Classical.choice, Quot.sound, propext
C102 MD.Energy.C102_work_partial: Classical.choice, Quot.sound, propext
C102 MD.Energy.C102_energy_partial: Classical.choice, Quot.sound, propext
C102 MD.Energy.C102_reported: Classical.choice, Quot.sound, propext
C102 MD.Energy.C102_elastic: Classical.choice, Quot.sound, propext
C102 MD.Energy.C102_bottom: Classical.choice, Quot.sound, propext
C102 MD.Energy.C102_body_rate: Classical.choice, Quot.sound, propext
C102 MD.Energy.C102_body_partial: Classical.choice, Quot.sound, propext
C102 MD.Energy.C102_points_rate: Classical.choice, Quot.sound, propext
C102 MD.Energy.C102_points_partial: Classical.choice, Quot.sound, propext
C102 MD.Energy.C102_body_false: Classical.choice, Quot.sound, propext
C102 MD.Energy.C102_rod_false: Classical.choice, Quot.sound, propext
C103 MD.Elastic.C103_tension: Classical.choice, Quot.sound, propext
C103 MD.Elastic.C103_tension_cycle: Classical.choice, Quot.sound, propext
C103 MD.Elastic.C103_bending_false: Classical.choice, Quot.sound, propext
C103 MD.Elastic.C103_bending_partial: Classical.choice, Quot.sound, propext
C104 MD.Balance.C104_force: Classical.choice, Quot.sound, propext
C104 MD.Balance.C104_moment: Classical.choice, Quot.sound, propext
C104 MD.Balance.C104_tied: Classical.choice, Quot.sound, propext
C104 MD.Balance.C104_defined: Classical.choice, Quot.sound, propext
C104 MD.Balance.C104_momentum: Classical.choice, Quot.sound, propext
C105 MD.Symmetry.C105_simulation: Classical.choice, Quot.sound, propext
C105 MD.Symmetry.C105_force: Classical.choice, Quot.sound, propext
C105 MD.Symmetry.C105_tension: Classical.choice, Quot.sound, propext
C105 MD.Symmetry.C105_plane: Classical.choice, Quot.sound, propext
C105 MD.Symmetry.C105_axis: Classical.choice, Quot.sound, propext
C106 MD.Separate.C106_simulation_partial: Classical.choice, Quot.sound, propext
C106 MD.Separate.C106_rest_partial: Classical.choice, Quot.sound, propext
C106 MD.Separate.C106_force: Classical.choice, Quot.sound, propext
C106 MD.Separate.C106_anderson_false: Classical.choice, Quot.sound, propext
C106 MD.Separate.C106_step_false: Classical.choice, Quot.sound, propext
C106 MD.Separate.C106_depth_false: Classical.choice, Quot.sound, propext
C106 MD.Whole.C106_whole_partial: Classical.choice, Quot.sound, propext
C106 MD.Whole.C106_whole_rest_partial: Classical.choice, Quot.sound, propext
C106 MD.Whole.C106_gear_partial: Classical.choice, Quot.sound, propext
C106 MD.Whole.C106_beside_partial: Classical.choice, Quot.sound, propext
C107 MD.Towing.C107_simulation_partial: Classical.choice, Quot.sound, propext
C107 MD.Towing.C107_seen_partial: Classical.choice, Quot.sound, propext
C107 MD.Towing.C107_force: Classical.choice, Quot.sound, propext
C107 MD.Towing.C107_line: Classical.choice, Quot.sound, propext
C107 MD.Towing.C107_rod: Classical.choice, Quot.sound, propext
C107 MD.Towing.C107_rod_acc: Classical.choice, Quot.sound, propext
C107 MD.Towing.C107_body: Classical.choice, Quot.sound, propext
C107 MD.Towing.C107_body_acc: Classical.choice, Quot.sound, propext
C107 MD.Towing.C107_body_parts: Classical.choice, Quot.sound, propext
C107 MD.Towing.C107_heun_false: Classical.choice, Quot.sound, propext
C108 MD.Units.C108_simulation_partial: Classical.choice, Quot.sound, propext
C108 MD.Units.C108_seen_partial: Classical.choice, Quot.sound, propext
C108 MD.Units.C108_froude_partial: Classical.choice, Quot.sound, propext
C108 MD.Units.C108_force: Classical.choice, Quot.sound, propext
C108 MD.Units.C108_line: Classical.choice, Quot.sound, propext
C108 MD.Units.C108_point: Classical.choice, Quot.sound, propext
C108 MD.Units.C108_tension: Classical.choice, Quot.sound, propext
C108 MD.Units.C108_world: Classical.choice, Quot.sound, propext
C108 MD.Units.C108_start: Classical.choice, Quot.sound, propext
C108 MD.Units.C108_clear: Classical.choice, Quot.sound, propext
C108 MD.Units.C108_wave: Classical.choice, Quot.sound, propext
C108 MD.Units.C108_short_false: Classical.choice, Quot.sound, propext
C108 MD.Units.C108_anderson_false: Classical.choice, Quot.sound, propext
C108 MD.Units.C108_rod_partial: Classical.choice, Quot.sound, propext
C108 MD.Units.C108_rod_acc_partial: Classical.choice, Quot.sound, propext
C108 MD.Units.C108_body_point: Classical.choice, Quot.sound, propext
C108 MD.Units.C108_body_partial: Classical.choice, Quot.sound, propext
C108 MD.Units.C108_body_acc_partial: Classical.choice, Quot.sound, propext
C108 MD.Units.C108_rod_false: Classical.choice, Quot.sound, propext
C108 MD.Whole.C108_whole_partial: Classical.choice, Quot.sound, propext
C109 MD.Restart.C109_restart: Classical.choice, Quot.sound, propext
C109 MD.Restart.C109_resumed: Classical.choice, Quot.sound, propext
C109 MD.Restart.C109_rates: Classical.choice, Quot.sound, propext
C109 MD.Restart.C109_update: Classical.choice, Quot.sound, propext
C109 MD.Restart.C109_history: Classical.choice, Quot.sound, propext
C109 MD.Restart.C109_local_false: Classical.choice, Quot.sound, propext
C109 MD.Whole.C109_whole_update: Classical.choice, Quot.sound, propext
C109 MD.Whole.C109_whole_call: Classical.choice, Quot.sound, propext
C109 MD.Whole.C109_whole: Classical.choice, Quot.sound, propext
C110 MD.Whole.C110_update: Classical.choice, Quot.sound, propext
C110 MD.Whole.C110_forces: Classical.choice, Quot.sound, propext
C110 MD.Whole.C110_given: Classical.choice, Quot.sound, propext
C110 MD.Whole.C110_start: Classical.choice, Quot.sound, propext
C110 MD.Whole.C110_simulation: Classical.choice, Quot.sound, propext
C110 MD.Whole.C110_rigid: Classical.choice, Quot.sound, propext
C110 MD.Whole.C110_length: Classical.choice, Quot.sound, propext
C110 MD.Whole.C110_fixed_body: Classical.choice, Quot.sound, propext
C110 MD.Whole.C110_fixed_point: Classical.choice, Quot.sound, propext
C110 MD.Whole.C110_anchor: Classical.choice, Quot.sound, propext
C111 MD.Whole.C111_forces: Classical.choice, Quot.sound, propext
C111 MD.Whole.C111_update: Classical.choice, Quot.sound, propext
C111 MD.Whole.C111_given: Classical.choice, Quot.sound, propext
C111 MD.Whole.C111_simulation: Classical.choice, Quot.sound, propext
C111 MD.Whole.C111_anchor_false: Classical.choice, Quot.sound, propext
C111 MD.Whole.C111_fixed_rod_false: Classical.choice, Quot.sound, propext
C111 MD.Whole.C111_fixed_body_false: Classical.choice, Quot.sound, propext
C111 MD.Whole.C111_nodes_false: Classical.choice, Quot.sound, propext
C111 MD.Whole.C111_water_false: Classical.choice, Quot.sound, propext
C112 MD.Whole.C112_update: Classical.choice, Quot.sound, propext
C112 MD.Whole.C112_call: Classical.choice, Quot.sound, propext
C112 MD.Whole.C112_anchor: Classical.choice, Quot.sound, propext
C113 MD.Whole.C113_force_partial: Classical.choice, Quot.sound, propext
C113 MD.Whole.C113_moment_partial: Classical.choice, Quot.sound, propext
C113 MD.Whole.C113_clamped_moment_false: Classical.choice, Quot.sound, propext
C113 MD.Whole.C113_body: Classical.choice, Quot.sound, propext
C113 MD.Whole.C113_rod: Classical.choice, Quot.sound, propext
C113 MD.Whole.C113_point: Classical.choice, Quot.sound, propext
C113 MD.Whole.C113_defined: Classical.choice, Quot.sound, propext
C114 MD.Rounded.C114_rounding: Classical.choice, Quot.sound, propext
C114 MD.Rounded.C114_steps: Classical.choice, Quot.sound, propext
C114 MD.Rounded.C114_call: Classical.choice, Quot.sound, propext
C114 MD.Rounded.C114_clock: Classical.choice, Quot.sound, propext
C114 MD.Rounded.C114_hangs: Classical.choice, Quot.sound, propext
C114 MD.Rounded.C114_clock_stops: Classical.choice, Quot.sound, propext
C114 MD.Rounded.C114_ten_tenths_false: Quot.sound, propext
C115 MD.Vtk.C115_line: Classical.choice, Quot.sound, propext
C115 MD.Vtk.C115_line_sound_partial: Classical.choice, Quot.sound, propext
C115 MD.Vtk.C115_line_sound_false: Classical.choice, Quot.sound, propext
C115 MD.Vtk.C115_line_empty_undefined: Quot.sound, propext
C115 MD.Vtk.C115_rod: Classical.choice, Quot.sound, propext
C115 MD.Vtk.C115_point: Classical.choice, Quot.sound, propext
C115 MD.Vtk.C115_body: Classical.choice, Quot.sound, propext
C115 MD.Vtk.C115_axes: Classical.choice, Quot.sound, propext
C115 MD.Vtk.C115_system: Classical.choice, Quot.sound, propext
C115 MD.Vtk.C115_save: Quot.sound, propext
C115 MD.Vtk.C115_shape: Classical.choice, Quot.sound, propext
C115 MD.Vtk.C115_shape_false: Classical.choice, Quot.sound, propext
C116 MD.Matlab.C116_call: Classical.choice, Quot.sound, propext
C116 MD.Matlab.C116_outputs: propext
C116 MD.Matlab.C116_named: Classical.choice, Quot.sound, propext
C116 MD.Matlab.C116_counted: Classical.choice, Quot.sound, propext
C116 MD.Matlab.C116_file_name_false: Classical.choice, Quot.sound, propext
C116 MD.Matlab.C116_no_way_false: Classical.choice, Quot.sound, propext
C116 MD.Matlab.C116_matrix: propext
C116 MD.Matlab.C116_matrix_false: propext
C116 MD.Matlab.C116_create: propext
C116 MD.Matlab.C116_coordinates: Quot.sound, propext
C117 MD.Whole.C117_symmetric_partial: Classical.choice, Quot.sound, propext
C117 MD.Whole.C117_axis_partial: Classical.choice, Quot.sound, propext
C118 MD.Whole.C118_axes_partial: Classical.choice, Quot.sound, propext
C118 MD.Whole.C118_own_partial: Classical.choice, Quot.sound, propext
C119 MD.Whole.C119_image_partial: Classical.choice, Quot.sound, propext
C119 MD.Whole.C119_sides_partial: Classical.choice, Quot.sound, propext
C119 MD.Whole.C119_plane_partial: Classical.choice, Quot.sound, propext
C120 MD.Layout.C120_uncoupled: Classical.choice, Quot.sound, propext
C120 MD.Layout.C120_idle: Classical.choice, Quot.sound, propext
C120 MD.Layout.C120_arrays: Classical.choice, Quot.sound, propext
C120 MD.Layout.C120_motion_false: Classical.choice, Quot.sound, propext
C120 MD.Layout.C120_forces_false: Classical.choice, Quot.sound, propext
C120 MD.Layout.C120_time_false: propext
C121 MD.Failures.C121_point: Classical.choice, Quot.sound, propext
C121 MD.Failures.C121_rod: Classical.choice, Quot.sound, propext
C121 MD.Failures.C121_exists: Classical.choice, Quot.sound, propext
C121 MD.Failures.C121_rows: Classical.choice, Quot.sound, propext
C121 MD.Failures.C121_due: Classical.choice, Quot.sound, propext
C121 MD.Failures.C121_no_time: Quot.sound, propext
C121 MD.Failures.C121_tension_false: Classical.choice, Quot.sound, propext
C121 MD.Failures.C121_repeated_false: Classical.choice, Quot.sound, propext
C121 MD.Failures.C121_unattached_false: Classical.choice, Quot.sound, propext
C122 MD.PointRow.C122_columns_partial: Classical.choice, Quot.sound, propext
C122 MD.PointRow.C122_force: Classical.choice, Quot.sound, propext
C122 MD.PointRow.C122_values: Classical.choice, Quot.sound, propext
C122 MD.PointRow.C122_refused: Classical.choice, Quot.sound, propext
C122 MD.PointRow.C122_place: Classical.choice, Quot.sound, propext
C122 MD.PointRow.C122_remark_false: Classical.choice, Quot.sound, propext
C123 MD.LineRow.C123_columns: Classical.choice, Quot.sound, propext
C123 MD.LineRow.C123_refused: Classical.choice, Quot.sound, propext
C123 MD.LineRow.C123_exists: Classical.choice, Quot.sound, propext
C123 MD.LineRow.C123_older_false: Classical.choice, Quot.sound, propext
C123 MD.LineRow.C123_senseless_false: Classical.choice, Quot.sound, propext
C124 MD.RodRow.C124_columns: Classical.choice, Quot.sound, propext
C124 MD.RodRow.C124_exists: Classical.choice, Quot.sound, propext
C124 MD.RodRow.C124_none: Classical.choice, Quot.sound, propext
C124 MD.RodRow.C124_segments_false: Classical.choice, Quot.sound, propext
C124 MD.Words.C84_rod_misspelt_false: Classical.choice, Quot.sound, propext
C124 MD.Reader.C70_false: propext
C125 MD.BodyRow.C125_columns_partial: Classical.choice, Quot.sound, propext
C125 MD.BodyRow.C125_short: Classical.choice, Quot.sound, propext
C125 MD.BodyRow.C125_counts: Classical.choice, Quot.sound, propext
C125 MD.BodyRow.C125_space_false: Classical.choice, Quot.sound, propext
C125 MD.Reader.C49_surge_false: Classical.choice, Quot.sound, propext
