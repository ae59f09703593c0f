{
 "claims": [
  {
   "property": "C01",
   "status": "proved",
   "theorems": [
    "Xdyn.Base91.base91_round_trip",
    "Xdyn.Base91.base91_encode_injective"
   ],
   "note": "For every byte list; out-of-table accesses are an explicit failure of the model and are excluded."
  },
  {
   "property": "C02",
   "status": "proved",
   "theorems": [
    "Xdyn.Base91.base91_alphabet"
   ],
   "note": ""
  },
  {
   "property": "C03",
   "status": "proved",
   "theorems": [
    "Xdyn.Base91.base91_skips_foreign"
   ],
   "note": ""
  },
  {
   "property": "C04",
   "status": "proved",
   "theorems": [
    "Xdyn.Base91.base91_size"
   ],
   "note": ""
  },
  {
   "property": "C05",
   "status": "proved",
   "theorems": [
    "Xdyn.Base64.base64_round_trip"
   ],
   "note": ""
  },
  {
   "property": "C06",
   "status": "proved",
   "theorems": [
    "Xdyn.Base64.base64_shape"
   ],
   "note": ""
  },
  {
   "property": "C07",
   "status": "proved",
   "theorems": [
    "Xdyn.Stl.stl_round_trip",
    "Xdyn.Stl.stl_quad_truncated"
   ],
   "note": "Coordinates are 32-bit patterns; the (float) conversion of the writer is outside the model. Facets are triangles: stl_quad_truncated shows what happens otherwise."
  },
  {
   "property": "C08",
   "status": "proved",
   "theorems": [
    "Xdyn.History.history_dates_increasing"
   ],
   "note": ""
  },
  {
   "property": "C09",
   "status": "proved",
   "theorems": [
    "Xdyn.History.history_record_outcome"
   ],
   "note": ""
  },
  {
   "property": "C10",
   "status": "proved",
   "theorems": [
    "Xdyn.History.history_window"
   ],
   "note": ""
  },
  {
   "property": "C11",
   "status": "partial",
   "theorems": [
    "Xdyn.History.history_latest_value_partial",
    "Xdyn.History.history_latest_value_refuted",
    "Xdyn.History.history_last_sample",
    "Xdyn.History.history_index"
   ],
   "note": "False in the code when the latest two dates differ by less than 1E-12 (refuted with a concrete history); proved for dates at least 1E-12 apart."
  },
  {
   "property": "C12",
   "status": "proved",
   "theorems": [
    "Xdyn.History.history_interpolates",
    "Xdyn.History.history_value_at_sample",
    "Xdyn.History.history_before_first_sample"
   ],
   "note": "Equality with the recorded value at a recorded date requires the previous sample to be at least 1E-12 older (snapping)."
  },
  {
   "property": "C13",
   "status": "proved",
   "theorems": [
    "Xdyn.History.history_bracket"
   ],
   "note": ""
  },
  {
   "property": "C14",
   "status": "partial",
   "theorems": [
    "Xdyn.History.history_drop_preserves_window_partial",
    "Xdyn.History.history_drop_refuted"
   ],
   "note": "False in the code when several samples are dropped at once (refuted); proved when at most one sample leaves the window."
  },
  {
   "property": "C15",
   "status": "proved",
   "theorems": [
    "Xdyn.History.history_average_bounds",
    "Xdyn.History.history_average_whole",
    "Xdyn.History.history_average_negative"
   ],
   "note": ""
  },
  {
   "property": "C16",
   "status": "proved",
   "theorems": [
    "Xdyn.State.state_vector_layout",
    "Xdyn.State.state_vector_of_histories"
   ],
   "note": ""
  },
  {
   "property": "C17",
   "status": "proved",
   "theorems": [
    "Xdyn.Server.json_inputs"
   ],
   "note": ""
  },
  {
   "property": "C18",
   "status": "partial",
   "theorems": [
    "Xdyn.Server.grpc_same_content_partial",
    "Xdyn.Server.grpc_dates_lost",
    "Xdyn.Server.grpc_dates_lost_euler",
    "Xdyn.Server.grpc_history_collapses",
    "Xdyn.Server.grpc_dates_refuted"
   ],
   "note": "False in the code: the dates are never copied. Proved for everything but the dates; the consequence (start at t=0, history reduced to one state) is proved for every request."
  },
  {
   "property": "C19",
   "status": "proved",
   "theorems": [
    "Xdyn.Server.grpc_validation",
    "Xdyn.Server.grpc_validation_euler",
    "Xdyn.Server.grpc_accepted_no_out_of_bounds",
    "Xdyn.Server.grpc_accepted_no_out_of_bounds_euler"
   ],
   "note": ""
  },
  {
   "property": "C20",
   "status": "partial",
   "theorems": [
    "Xdyn.Server.dx_dt_quaternion_refusals_partial",
    "Xdyn.Server.dx_dt_quaternion_undefined"
   ],
   "note": "False in the code: for every accepted non-empty request the answer is undefined behaviour (implicit conversion of the date to SimServerInputs); only the refusals are as expected."
  },
  {
   "property": "C21",
   "status": "partial",
   "theorems": [
    "Xdyn.Blocked.blocked_states_follow_prescription_partial",
    "Xdyn.Blocked.blocked_derivatives_follow_prescription_partial",
    "Xdyn.Blocked.blocked_states_from_csv_force_u"
   ],
   "note": "Proved for prescriptions written in the YAML file; false for prescriptions read in a CSV file, which always force u (BlockedDOF.cpp:159-190 never sets the state): shown by blocked_states_from_csv_force_u."
  },
  {
   "property": "C22",
   "status": "proved",
   "theorems": [
    "Xdyn.Blocked.blocked_twice_refused",
    "Xdyn.Blocked.blocked_once_accepted"
   ],
   "note": ""
  },
  {
   "property": "C23",
   "status": "proved",
   "theorems": [
    "Xdyn.Body.blocking_wrench_closes_equations"
   ],
   "note": ""
  },
  {
   "property": "C24",
   "status": "partial",
   "theorems": [
    "Xdyn.Sim.observed_states_forced_partial",
    "Xdyn.Sim.observed_states_only_last_body",
    "Xdyn.Sim.observed_states_forced_refuted"
   ],
   "note": "False in the code with several bodies (only the last one is forced in the outputs); proved when only the last body has blocked states."
  },
  {
   "property": "C25",
   "status": "proved",
   "theorems": [
    "Xdyn.Sim.quaternions_normalised"
   ],
   "note": ""
  },
  {
   "property": "C26",
   "status": "proved",
   "theorems": [
    "Xdyn.Body.rotation_matrix_orthogonal",
    "Xdyn.Body.quaternion_derivative_orthogonal"
   ],
   "note": ""
  },
  {
   "property": "C27",
   "status": "partial",
   "theorems": [
    "Xdyn.Server.cosim_depends_on_request_partial",
    "Xdyn.Server.cosim_history_of_requests_partial",
    "Xdyn.Server.cosim_command_leaks",
    "Xdyn.Server.cosim_first_forces_leak",
    "Xdyn.Server.cosim_empty_request_leaks"
   ],
   "note": "False in the code in three cases (refuted); proved for non-empty requests giving all the commands, for everything but the other observations of the first state."
  },
  {
   "property": "C28",
   "status": "proved",
   "theorems": [
    "Xdyn.Body.controlled_wrench_power",
    "Xdyn.Body.controlled_wrench_round_trip"
   ],
   "note": ""
  },
  {
   "property": "C29",
   "status": "partial",
   "theorems": [
    "Xdyn.Body.observed_wrench_error",
    "Xdyn.Body.observed_wrench_partial",
    "Xdyn.Body.observed_wrench_refuted"
   ],
   "note": "False in the code (refuted with a concrete wrench); the exact error is observed_wrench_error and the property is proved when it vanishes."
  },
  {
   "property": "C30",
   "status": "proved",
   "theorems": [
    "Xdyn.Body.linear_damping_dissipates",
    "Xdyn.Body.quadratic_damping_dissipates",
    "Xdyn.Body.damping_odd"
   ],
   "note": ""
  },
  {
   "property": "C31",
   "status": "proved",
   "theorems": [
    "Xdyn.Body.gravity_is_the_weight",
    "Xdyn.Body.gravity_power",
    "Xdyn.Body.gravity_energy_first_body_only"
   ],
   "note": "The potential energy of a body other than the first one uses the depth of the first body (gravity_energy_first_body_only)."
  },
  {
   "property": "C32",
   "status": "proved",
   "theorems": [
    "Xdyn.Solver.fixed_step_grid",
    "Xdyn.Solver.fixed_step_last_index",
    "Xdyn.Solver.fixed_step_error",
    "Xdyn.Solver.null_step_never_ends"
   ],
   "note": ""
  },
  {
   "property": "C33",
   "status": "proved",
   "theorems": [
    "Xdyn.Obs.observeAll_spec",
    "Xdyn.Obs.observeAll_error_iff",
    "Xdyn.Obs.columns"
   ],
   "note": "For every observer implementation (the virtual functions are parameters)."
  },
  {
   "property": "C34",
   "status": "proved",
   "theorems": [
    "Xdyn.Obs.csv_lines"
   ],
   "note": "The formatting of a number is a parameter whose texts contain neither comma nor line break; requested names contain no line break."
  },
  {
   "property": "C35",
   "status": "partial",
   "theorems": [
    "Xdyn.Obs.dict_content_partial",
    "Xdyn.Obs.dict_names_collide",
    "Xdyn.Obs.dict_drops_empty_key"
   ],
   "note": "Proved for names of the forms 'name' and 'var(key)'; other names collide or are dropped (refutations)."
  },
  {
   "property": "C36",
   "status": "proved",
   "theorems": [
    "Xdyn.Obs.flushMap_entries"
   ],
   "note": ""
  },
  {
   "property": "C37",
   "status": "partial",
   "theorems": [
    "Xdyn.Obs.everything_results_partial",
    "Xdyn.Obs.everything_late_variable_refuted"
   ],
   "note": "Proved when the same scalars are observed at all dates; a variable that appears later is put in the result of an earlier date (refutation)."
  },
  {
   "property": "C38",
   "status": "proved",
   "theorems": [
    "Xdyn.Hull.edge_classification"
   ],
   "note": ""
  },
  {
   "property": "C39",
   "status": "proved",
   "theorems": [
    "Xdyn.Hull.edge_intersection_point",
    "Xdyn.Hull.update_new_nodes"
   ],
   "note": ""
  },
  {
   "property": "C40",
   "status": "proved",
   "theorems": [
    "Xdyn.Hull.update_triangles"
   ],
   "note": "For every mesh of triangles (as built by build_triangles, and after any history of updates).  Facets with more vertices are not covered: see DESIGN.md for what happens with several vertices exactly on the surface."
  },
  {
   "property": "C41",
   "status": "proved",
   "theorems": [
    "Xdyn.Hull.update_triangles",
    "Xdyn.Hull.split_area",
    "Xdyn.Hull.split_volume",
    "Xdyn.Hull.update_conserves",
    "Xdyn.Hull.build_update_area"
   ],
   "note": "A triangle that lies entirely in the free surface is put on both sides (last case of TriangleOutcome)."
  },
  {
   "property": "C42",
   "status": "proved",
   "theorems": [
    "Xdyn.Hull.oriented_edge_roundtrip"
   ],
   "note": ""
  },
  {
   "property": "C43",
   "status": "proved",
   "theorems": [
    "Xdyn.Hull.mesh_building",
    "Xdyn.Hull.mesh_building_in_bounds",
    "Xdyn.Hull.mesh_building_overflow",
    "Xdyn.Hull.build_triangles"
   ],
   "note": "mesh_building is conditional on the construction not writing out of the allocated columns, which is proved when no facet has more points than the first one (mesh_building_in_bounds) and refuted otherwise (mesh_building_overflow)."
  },
  {
   "property": "C44",
   "status": "proved",
   "theorems": [
    "Xdyn.Hull.volume_translation",
    "Xdyn.Hull.update_conserves",
    "Xdyn.Hull.tetrahedron"
   ],
   "note": "Triangles whose normal is not rounded to zero."
  },
  {
   "property": "C45",
   "status": "proved",
   "theorems": [
    "Xdyn.Waves.flatten_components",
    "Xdyn.Waves.flatten_energy"
   ],
   "note": ""
  },
  {
   "property": "C46",
   "status": "partial",
   "theorems": [
    "Xdyn.Waves.filter_partial",
    "Xdyn.Waves.filter_loses_phases"
   ],
   "note": "Everything holds but the phases: the filtered spectrum has none, so it cannot be evaluated (refuted). filter is not called by the simulator."
  },
  {
   "property": "C47",
   "status": "proved",
   "theorems": [
    "Xdyn.Waves.angular_frequencies",
    "Xdyn.Waves.angular_frequencies_single",
    "Xdyn.Waves.angular_frequencies_error"
   ],
   "note": ""
  },
  {
   "property": "C48",
   "status": "partial",
   "theorems": [
    "Xdyn.Waves.constant_phases_partial",
    "Xdyn.Waves.constant_phases_out_of_range",
    "Xdyn.Waves.random_phases"
   ],
   "note": "Refuted when there are more directions than frequencies: std::out_of_range. Random phases are right in all cases."
  },
  {
   "property": "C49",
   "status": "partial",
   "theorems": [
    "Xdyn.Waves.finite_depth_partial",
    "Xdyn.Waves.positive_depth_is_ignored",
    "Xdyn.Waves.positive_depth_wave_numbers",
    "Xdyn.Waves.zero_depth_is_refused"
   ],
   "note": "Refuted: the test on the depth is inverted; positive depths are ignored, zero depth is always refused."
  },
  {
   "property": "C50",
   "status": "proved",
   "theorems": [
    "Xdyn.Waves.stretching_bottom",
    "Xdyn.Waves.stretching_surface",
    "Xdyn.Waves.stretching_increasing",
    "Xdyn.Waves.stretching_range",
    "Xdyn.Waves.stretching_identity"
   ],
   "note": "For h > 0, surface above h, 0 <= delta <= 1 (the code does not check these)."
  },
  {
   "property": "C51",
   "status": "proved",
   "theorems": [
    "Xdyn.Waves.elevation_superposition",
    "Xdyn.Waves.elevation_bound",
    "Xdyn.Waves.elevation_append",
    "Xdyn.Waves.wave_height_sum",
    "Xdyn.Waves.elevation_sizes"
   ],
   "note": ""
  },
  {
   "property": "C52",
   "status": "partial",
   "theorems": [
    "Xdyn.Waves.pressure_above_surface",
    "Xdyn.Waves.velocity_above_surface",
    "Xdyn.Waves.pressure_bound",
    "Xdyn.Waves.attenuation_partial",
    "Xdyn.Waves.attenuation_finite_partial",
    "Xdyn.Waves.attenuation_decreases",
    "Xdyn.Waves.attenuation_above_one"
   ],
   "note": "The attenuation is above 1 in crests without stretching (refuted); it is in [0,1] under the mean level or with Wheeler stretching."
  },
  {
   "property": "C53",
   "status": "proved",
   "theorems": [
    "Xdyn.Waves.bretschneider_nonneg",
    "Xdyn.Waves.bretschneider_defined",
    "Xdyn.Waves.jonswap_nonneg",
    "Xdyn.Waves.jonswap_negative",
    "Xdyn.Waves.piersonMoskowitz_nonneg",
    "Xdyn.Waves.piersonMoskowitz_eq_bretschneider",
    "Xdyn.Waves.diracDensity_nonneg",
    "Xdyn.Waves.diracSpreading_nonneg",
    "Xdyn.Waves.cos2s_nonneg"
   ],
   "note": "Cos2s for integer s: for a non-integer s, pow of a negative number is NaN in C++."
  },
  {
   "property": "C54",
   "status": "partial",
   "theorems": [
    "Xdyn.WaveGrid.mesh_covers",
    "Xdyn.WaveGrid.mesh_single",
    "Xdyn.WaveGrid.mesh_increasing",
    "Xdyn.WaveGrid.mesh_points",
    "Xdyn.WaveGrid.grid_values",
    "Xdyn.WaveGrid.grid_partial",
    "Xdyn.WaveGrid.grid_wrong_in_rotated_frame"
   ],
   "note": "Refuted for output frames rotated with respect to NED."
  },
  {
   "property": "C55",
   "status": "proved",
   "theorems": [
    "Xdyn.Hdb.hdb_frame_conjugation",
    "Xdyn.Hdb.hdb_frame_involution",
    "Xdyn.Hdb.hdb_frame_symmetric",
    "Xdyn.Hdb.hdb_frame_quadratic_form",
    "Xdyn.Hdb.hdb_frame_equivariance"
   ],
   "note": ""
  },
  {
   "property": "C56",
   "status": "proved",
   "theorems": [
    "Xdyn.Hdb.diffraction_periodic",
    "Xdyn.Hdb.diffraction_direct",
    "Xdyn.Hdb.diffraction_mirror",
    "Xdyn.Hdb.diffraction_port_starboard",
    "Xdyn.Hdb.wrapAngle_range"
   ],
   "note": ""
  },
  {
   "property": "C57",
   "status": "proved",
   "theorems": [
    "Xdyn.Forces.rudder_area_partition",
    "Xdyn.Forces.rudder_Kr_bounds"
   ],
   "note": ""
  },
  {
   "property": "C58",
   "status": "partial",
   "theorems": [
    "Xdyn.Forces.wageningen_parameters",
    "Xdyn.Forces.wageningen_advance_ratio_saturated",
    "Xdyn.Forces.wageningen_pitch_not_restricted"
   ],
   "note": "Number of blades, area ratio and advance ratio: proved. Refuted for the pitch ratio, which only triggers a message."
  },
  {
   "property": "C59",
   "status": "proved",
   "theorems": [
    "Xdyn.Maneuvering.compile_value",
    "Xdyn.Maneuvering.writes_unique",
    "Xdyn.Maneuvering.compile_command",
    "Xdyn.Maneuvering.print_not_faithful",
    "Xdyn.Maneuvering.sign_binds_tighter"
   ],
   "note": "character-level parser proved complete for the textbook grammar (Spec/Maneuvering.lean), for every arithmetic and environment. Findings: a sign belongs to the literal, so -3^2 is (-3)^2; maneuvering::print drops needed parentheses"
  },
  {
   "property": "C60",
   "status": "partial",
   "theorems": [
    "Xdyn.Maneuvering.compile_prefix_partial",
    "Xdyn.Maneuvering.compile_ignores_rest",
    "Xdyn.Maneuvering.compile_unparsable",
    "Xdyn.Maneuvering.ill_written"
   ],
   "note": "false as stated: text that cannot be parsed is ignored and an unreadable expression is NaN; proved: what is compiled is always a well-written beginning of the text, or NaN"
  },
  {
   "property": "C61",
   "status": "partial",
   "theorems": [
    "Xdyn.Maneuvering.modelTmax_covers_partial",
    "Xdyn.Maneuvering.modelTmax_nonneg",
    "Xdyn.Maneuvering.tame_bounds",
    "Xdyn.Maneuvering.tmax_too_short_other_state",
    "Xdyn.Maneuvering.tmax_too_short_variable",
    "Xdyn.Maneuvering.tmax_too_short_nested"
   ],
   "note": "true for constant delays and, for the state x, for delays with sound bounds; false for variable delays of other states, delays given by a variable, and states inside a delay"
  },
  {
   "property": "C62",
   "status": "partial",
   "theorems": [
    "Xdyn.Config.getFormat_extension",
    "Xdyn.Config.getFormat_unknown_partial",
    "Xdyn.Config.getFormat_sound",
    "Xdyn.Config.getFormatForWaveObserver_partial",
    "Xdyn.Config.getFormat_four_characters",
    "Xdyn.Config.wave_a_H5",
    "Xdyn.Config.ws_file_refused"
   ],
   "note": "Every name with a stem and a known extension gets its format, and accepted names have the extension. Refuted for four-character names (std::out_of_range) and for names beginning with ws (refused)."
  },
  {
   "property": "C63",
   "status": "partial",
   "theorems": [
    "Xdyn.Config.fromUrl_sound_partial",
    "Xdyn.Config.fromUrl_complete",
    "Xdyn.Config.fromUrl_port",
    "Xdyn.Config.ws_port_junk"
   ],
   "note": "Soundness and completeness of the address grammar; the digits of the port may be followed by anything, e.g. ws://localhost:80abc."
  },
  {
   "property": "C64",
   "status": "proved",
   "theorems": [
    "Xdyn.Config.getWave_ok_iff",
    "Xdyn.Config.getWave_two"
   ],
   "note": "Exact characterisation of the accepted inputs and of the result, for every list of parsers and of models."
  },
  {
   "property": "C65",
   "status": "proved",
   "theorems": [
    "Xdyn.Config.forcesFrom_ok_iff",
    "Xdyn.Config.forcesFrom_unknown",
    "Xdyn.Config.registeredModels_nodup"
   ],
   "note": "Parsers are any functions with distinct names; the twenty registered names are distinct."
  },
  {
   "property": "C66",
   "status": "proved",
   "theorems": [
    "Xdyn.Config.history_long_enough",
    "Xdyn.Config.history_same_name"
   ],
   "note": "For distinct body names (the hypothesis is necessary: history_same_name)."
  },
  {
   "property": "C67",
   "status": "partial",
   "theorems": [
    "Xdyn.Config.command_value_partial",
    "Xdyn.Config.command_missing",
    "Xdyn.Config.getCommands_own",
    "Xdyn.Config.namify_injective",
    "Xdyn.Config.command_replaced"
   ],
   "note": "SSC's interpolation is a parameter of the model. Refuted for model names that contain a parenthesis."
  },
  {
   "property": "C68",
   "status": "proved",
   "theorems": [
    "Xdyn.GZ.getPhi_spec",
    "Xdyn.GZ.getPhi_invalid"
   ],
   "note": "For less than 2^30 steps (the loop index is an int, the model has undefined behaviour above)."
  },
  {
   "property": "C69",
   "status": "proved",
   "theorems": [
    "Xdyn.GZ.bisectLoop_spec",
    "Xdyn.GZ.zeq_equilibrium",
    "Xdyn.GZ.zeq_unique"
   ],
   "note": "Over the reals (in floating point the loop does not stop if 1E-10 is below the spacing of the doubles around the draft); monotonicity is only needed for uniqueness."
  },
  {
   "property": "C70",
   "status": "partial",
   "theorems": [
    "Xdyn.GZ.theta_eq_always_zero",
    "Xdyn.GZ.theta_eq_untrimmed_partial",
    "Xdyn.GZ.trimmed_body"
   ],
   "note": "The result of the Newton-Raphson search is discarded: the trim is always zero. True only for bodies without trim."
  },
  {
   "property": "C71",
   "status": "partial",
   "theorems": [
    "Xdyn.Stl.stl_complete_file_partial",
    "Xdyn.Stl.stl_truncated_file_undefined",
    "Xdyn.Stl.stl_truncated_facet_repeated"
   ],
   "note": "False in the code (refuted for every empty body and for a facet cut before its attributes, which is repeated); proved for files that are long enough."
  },
  {
   "property": "C72",
   "status": "proved",
   "theorems": [
    "Xdyn.Body.quaternion_kinematics"
   ],
   "note": ""
  },
  {
   "property": "C73",
   "status": "proved",
   "theorems": [
    "Xdyn.Server.dx_dt_euler_answers"
   ],
   "note": ""
  },
  {
   "property": "C74",
   "status": "proved",
   "theorems": [
    "Xdyn.Server.euler_rates"
   ],
   "note": ""
  },
  {
   "property": "C75",
   "status": "proved",
   "theorems": [
    "Xdyn.Sim.all_bodies_forced"
   ],
   "note": ""
  },
  {
   "property": "C76",
   "status": "partial",
   "theorems": [
    "Xdyn.Obs.json_lines_partial",
    "Xdyn.Obs.json_second_line_refuted",
    "Xdyn.Obs.json_wrenches_refuted",
    "Xdyn.Obs.json_grid_refuted"
   ],
   "note": "Proved for requests of scalars that include a plain variable such as t and, if wrenches are requested, a state; false otherwise (three refutations)."
  },
  {
   "property": "C77",
   "status": "proved",
   "theorems": [
    "Xdyn.Hull.center_of_mass_translation",
    "Xdyn.Hull.tetrahedron"
   ],
   "note": "The closing facets are part of the list of facets; their computation is not modelled."
  },
  {
   "property": "C78",
   "status": "partial",
   "theorems": [
    "Xdyn.Waves.directions_partial",
    "Xdyn.Waves.directional_energy_is_lost"
   ],
   "note": "Refuted: the last sector is not counted, 1/n of the energy of a uniform spreading is lost."
  },
  {
   "property": "C79",
   "status": "proved",
   "theorems": [
    "Xdyn.Waves.component_travels",
    "Xdyn.Waves.component_periodic"
   ],
   "note": ""
  },
  {
   "property": "C80",
   "status": "proved",
   "theorems": [
    "Xdyn.Waves.velocity_ignores_stretching",
    "Xdyn.Waves.velocity_above_surface"
   ],
   "note": ""
  },
  {
   "property": "C81",
   "status": "proved",
   "theorems": [
    "Xdyn.Waves.airy_infinite_depth",
    "Xdyn.Waves.waveNumber_dispersion"
   ],
   "note": ""
  },
  {
   "property": "C82",
   "status": "proved",
   "theorems": [
    "Xdyn.Waves.airy_finite_depth"
   ],
   "note": ""
  },
  {
   "property": "C83",
   "status": "proved",
   "theorems": [
    "Xdyn.Waves.rao_identity",
    "Xdyn.Waves.rao_bound",
    "Xdyn.Waves.rao_size"
   ],
   "note": ""
  },
  {
   "property": "C84",
   "status": "proved",
   "theorems": [
    "Xdyn.Waves.wave_number_exists_unique",
    "Xdyn.Waves.wave_number_in_bracket",
    "Xdyn.Waves.wave_number_out_of_bracket",
    "Xdyn.Waves.waveNumberFunctor_root",
    "Xdyn.Waves.waveNumberFunctor_derivatives"
   ],
   "note": "Halley's iteration (Boost) is not modelled."
  },
  {
   "property": "C85",
   "status": "proved",
   "theorems": [
    "Xdyn.Hdb.hdb_matrix_from_file",
    "Xdyn.Hdb.hdb_missing_line_refused",
    "Xdyn.Hdb.hdb_periods_not_checked"
   ],
   "note": "The periods of the six lines are not compared (hdb_periods_not_checked); a list of sections is assumed to be non-empty, as the grammar guarantees."
  },
  {
   "property": "C86",
   "status": "partial",
   "theorems": [
    "Xdyn.Hdb.hdb_rao_from_file_partial",
    "Xdyn.Hdb.hdb_rao_shape",
    "Xdyn.Hdb.rao_of_text_partial",
    "Xdyn.Hdb.hdb_rao_file_order_refuted"
   ],
   "note": "Holds when periods and directions are increasing in the file; refuted otherwise."
  },
  {
   "property": "C87",
   "status": "proved",
   "theorems": [
    "Xdyn.Hdb.diffraction_wrench_transport",
    "Xdyn.Hdb.diffraction_periods_accepted"
   ],
   "note": ""
  },
  {
   "property": "C88",
   "status": "proved",
   "theorems": [
    "Xdyn.Hdb.regular_intervals_spec",
    "Xdyn.Hdb.radiation_omegas_spec"
   ],
   "note": ""
  },
  {
   "property": "C89",
   "status": "partial",
   "theorems": [
    "Xdyn.Hdb.integration_bound_partial",
    "Xdyn.Hdb.integration_bound_refuted"
   ],
   "note": "Refuted: a damping which is small at both ends of the frequency range is neglected entirely."
  },
  {
   "property": "C90",
   "status": "partial",
   "theorems": [
    "Xdyn.Hdb.radiation_zero_before_tau_min",
    "Xdyn.Hdb.radiation_window",
    "Xdyn.Hdb.radiation_unsuitable_quadrature",
    "Xdyn.Hdb.radiation_inputs_ignored",
    "Xdyn.Hdb.quadrature_names"
   ],
   "note": "Proved: zero before tau min, window. Refuted: the frequency bounds and the calculation point are ignored."
  },
  {
   "property": "C91",
   "status": "proved",
   "theorems": [
    "Xdyn.Forces.rudder_force_dissipates",
    "Xdyn.Forces.rudder_force_symmetric",
    "Xdyn.Forces.rudder_reduction_factor",
    "Xdyn.Forces.rudder_force_at_rudder"
   ],
   "note": ""
  },
  {
   "property": "C92",
   "status": "partial",
   "theorems": [
    "Xdyn.Forces.propeller_rotation_sense",
    "Xdyn.Forces.propeller_formula",
    "Xdyn.Forces.propeller_stopped_partial",
    "Xdyn.Forces.propeller_stopped_at_rest_refuted",
    "Xdyn.Forces.propeller_reverse_pushes_forward"
   ],
   "note": "Refuted: not a number when both ship and propeller are stopped; a propeller turning backwards pushes forward."
  },
  {
   "property": "C93",
   "status": "partial",
   "theorems": [
    "Xdyn.Forces.heading_controller_partial",
    "Xdyn.Forces.heading_controller_refuted",
    "Xdyn.Forces.heading_controller_not_periodic",
    "Xdyn.Forces.station_keeping_partial",
    "Xdyn.Forces.station_keeping_wrong_heading"
   ],
   "note": "Refuted: the heading controller uses the heave inertia; the station-keeping force is not rotated to the body frame."
  },
  {
   "property": "C94",
   "status": "partial",
   "theorems": [
    "Xdyn.Forces.linear_damping_dissipates",
    "Xdyn.Forces.quadratic_damping_dissipates_partial",
    "Xdyn.Forces.quadratic_damping_refuted",
    "Xdyn.Forces.quadratic_damping_odd",
    "Xdyn.Forces.resistance_dissipates"
   ],
   "note": "Linear: proved. Quadratic: proved for diagonal matrices, refuted with coupling terms."
  },
  {
   "property": "C95",
   "status": "partial",
   "theorems": [
    "Xdyn.Forces.controlled_force_transport",
    "Xdyn.Forces.constant_force_partial",
    "Xdyn.Forces.constant_force_turned_partial",
    "Xdyn.Forces.constant_force_refuted",
    "Xdyn.Forces.hydrostatic_at_buoyancy_centre",
    "Xdyn.Forces.hydrostatic_zero",
    "Xdyn.Forces.gravity_in_ned"
   ],
   "note": "Refuted for constant forces declared in a frame other than the body frame."
  },
  {
   "property": "C96",
   "status": "partial",
   "theorems": [
    "Xdyn.Forces.linear_hydrostatics_equilibrium",
    "Xdyn.Forces.linear_hydrostatics_rise",
    "Xdyn.Forces.mean_wave_slope_partial",
    "Xdyn.Forces.mean_wave_slope_refuted",
    "Xdyn.Forces.linear_hydrostatics_mean"
   ],
   "note": "Refuted: the mean slope is wrong unless the points are one metre apart."
  },
  {
   "property": "C97",
   "status": "proved",
   "theorems": [
    "Xdyn.Forces.gz_is_lever_arm"
   ],
   "note": ""
  },
  {
   "property": "C98",
   "status": "proved",
   "theorems": [
    "Xdyn.Config.defaultOutputter_data"
   ],
   "note": ""
  },
  {
   "property": "C99",
   "status": "proved",
   "theorems": [
    "Xdyn.GZ.newton_phi",
    "Xdyn.GZ.newton_at_equilibrium",
    "Xdyn.GZ.newton_heeled",
    "Xdyn.GZ.newton_linear",
    "Xdyn.GZ.stiffness_linear"
   ],
   "note": ""
  },
  {
   "property": "C100",
   "status": "partial",
   "theorems": [
    "Xdyn.GZ.symmetric_mesh_partial",
    "Xdyn.GZ.getZminZmax_bounds",
    "Xdyn.GZ.zeq_dense_body",
    "Xdyn.GZ.zeq_light_body"
   ],
   "note": "The interval is [zmin,zmax] of the mesh instead of [-zmax,-zmin]: true for symmetric meshes only. Otherwise a wrong draft may be returned silently or an error raised."
  },
  {
   "property": "C101",
   "status": "proved",
   "theorems": [
    "Xdyn.StlAscii.ascii_stl_round_trip",
    "Xdyn.StlAscii.ascii_stl_round_trip_detected",
    "Xdyn.StlAscii.ascii_stl_comments",
    "Xdyn.StlAscii.ascii_stl_polygons_refused",
    "Xdyn.StlAscii.ascii_stl_triangles",
    "Xdyn.StlAscii.ascii_stl_needs_endsolid",
    "Xdyn.StlAscii.read_never_runs_out",
    "Xdyn.StlAscii.exact_digit",
    "Xdyn.StlAscii.ascii_stl_crlf_blank_line_undefined",
    "Xdyn.StlAscii.ascii_stl_long_word_undefined"
   ],
   "note": "Printing and scanning of one number are parameters of the model. Outside the property: a blank line ended by CR LF after a facet, and words of 20 characters or more, are undefined behaviour (shown)."
  },
  {
   "property": "C102",
   "status": "proved",
   "theorems": [
    "Xdyn.Stl.stl_text_iff",
    "Xdyn.Stl.stl_test_throws_iff",
    "Xdyn.Stl.stl_unnamed_solid_is_binary"
   ],
   "note": "Consequence: a text whose first line is 'solid' without a name is read as binary (stl_unnamed_solid_is_binary)."
  },
  {
   "property": "C103",
   "status": "partial",
   "theorems": [
    "Xdyn.State.current_state_values",
    "Xdyn.State.update_then_current",
    "Xdyn.State.reset_histories_empty",
    "Xdyn.State.current_state_values_refuted"
   ],
   "note": "Proved for the first body (index 0). Refuted for index >= 1: get_current_state_values writes past the end of a vector of thirteen values."
  },
  {
   "property": "C104",
   "status": "partial",
   "theorems": [
    "Xdyn.GM.gz_of_vertical_force",
    "Xdyn.GM.gz_lever_partial",
    "Xdyn.GM.gz_lever_refuted",
    "Xdyn.GM.gm_difference",
    "Xdyn.GM.gm_tends_to_slope",
    "Xdyn.GM.gm_linear",
    "Xdyn.GM.gz_observed_refuted",
    "Xdyn.GM.position_rates_without_gm",
    "Xdyn.GM.position_rates_with_gm",
    "Xdyn.GM.gm_changes_the_motion",
    "Xdyn.GM.gm_changes_the_weight"
   ],
   "note": "GM converges to the slope of the computed GZ. Refuted: GZ carries an extra cos(theta), the observed GZ is the mean of two values, and the GM model leaves the shared kinematics in the heeled attitude, which changes the position rates and the models evaluated after it."
  },
  {
   "property": "C105",
   "status": "proved",
   "theorems": [
    "Xdyn.Hull.archimedes_force",
    "Xdyn.Hull.archimedes_moment",
    "Xdyn.Hull.archimedes_hull",
    "Xdyn.Hull.lid_volume"
   ],
   "note": "Over the reals, from the facets' forces and the divergence theorem for closed polyhedra."
  },
  {
   "property": "C106",
   "status": "partial",
   "theorems": [
    "Xdyn.Hull.inertia_of_polygon_means",
    "Xdyn.Hull.depthMoment_mean",
    "Xdyn.Hull.mean_product",
    "Xdyn.Hull.fast_point_flat",
    "Xdyn.Hull.exact_application_point_refuted",
    "Xdyn.Hull.exact_application_point_refuted_unit",
    "Xdyn.Hull.g_in_mesh_frame_refuted"
   ],
   "note": "The inertia of the polygon is proved exact and the centre of gravity is proved right for horizontal facets; refuted in general: J00 is used for J11, the down direction has length g and the wrong side in heel."
  },
  {
   "property": "C107",
   "status": "partial",
   "theorems": [
    "Xdyn.Inertia.sdp_exact",
    "Xdyn.Inertia.accepted_accelerations",
    "Xdyn.Inertia.inertia_accepted_partial",
    "Xdyn.Inertia.inertia_accepted_refuted",
    "Xdyn.Inertia.convert_rows"
   ],
   "note": "Proved for exactly symmetric matrices (Sylvester's criterion); refuted for the absolute tolerance 1e-10 on symmetry."
  },
  {
   "property": "C108",
   "status": "proved",
   "theorems": [
    "Xdyn.Hull.mesh_in_body_frame",
    "Xdyn.Hull.in_body_frame_iff",
    "Xdyn.Hull.area_in_body_frame",
    "Xdyn.Hull.centre_in_body_frame",
    "Xdyn.Hull.distance_in_body_frame"
   ],
   "note": "Over the reals."
  },
  {
   "property": "C109",
   "status": "proved",
   "theorems": [
    "Xdyn.Hull.watertight",
    "Xdyn.Hull.build_watertight"
   ],
   "note": "For meshes in general position as stated in the theorem."
  },
  {
   "property": "C110",
   "status": "proved",
   "theorems": [
    "Xdyn.Closing.group_connected_edges",
    "Xdyn.Closing.components_exist"
   ],
   "note": "Boost's connected_components is a parameter of the model, constrained by its documentation (IsComponents, shown satisfiable for every list of edges)"
  },
  {
   "property": "C111",
   "status": "proved",
   "theorems": [
    "Xdyn.Closing.closing_facet_of_polygon",
    "Xdyn.Closing.contour_of_polygon",
    "Xdyn.Closing.closing_facets",
    "Xdyn.Closing.contour_has_no_dead_end",
    "Xdyn.Closing.single_edge_gives_no_facet",
    "Xdyn.Closing.group_all_edges"
   ],
   "note": "closing_facets is the statement for all the groups of a mesh at once"
  },
  {
   "property": "C112",
   "status": "partial",
   "theorems": [
    "Xdyn.Closing.closing_facet_direction",
    "Xdyn.Closing.contour_direction",
    "Xdyn.Closing.closing_facets",
    "Xdyn.Closing.closing_direction_refuted",
    "Xdyn.Closing.closing_normal_refuted"
   ],
   "note": "proved for convex waterlines (and the stored normal for horizontal ones in the body frame); refuted for a star-shaped waterline (wrong direction) and for a heeled body (the normal is hard-coded as (0,0,-1) in the body frame)"
  },
  {
   "property": "C113",
   "status": "partial",
   "theorems": [
    "Xdyn.Closing.immersed_volume_partial",
    "Xdyn.Closing.emerged_volume_partial",
    "Xdyn.Closing.facetVolume_flat",
    "Xdyn.Closing.has_facet_iff",
    "Xdyn.Closing.emerged_facet_counted_once",
    "Xdyn.Closing.immersed_volume_refuted"
   ],
   "note": "proved when the facets are flat and the immersed facets alone do not add up to zero; refuted otherwise: a tetrahedron with its tip at the origin is found to have no volume."
  },
  {
   "property": "C114",
   "status": "proved",
   "theorems": [
    "Xdyn.Hull.waterline_edges",
    "Xdyn.Hull.update_loops"
   ],
   "note": ""
  },
  {
   "property": "C115",
   "status": "partial",
   "theorems": [
    "Xdyn.Hull.hydrostatic_energy_partial",
    "Xdyn.Hull.hydrostatic_energy_refuted"
   ],
   "note": "What holds: the energy changes by the work of Archimedes' force in a translation of the mesh. Refuted: the sign is wrong and the depth is measured in the body frame."
  },
  {
   "property": "C116",
   "status": "proved",
   "theorems": [
    "Xdyn.Waves.bretschneider_energy_peak",
    "Xdyn.Waves.piersonMoskowitz_energy_peak",
    "Xdyn.Waves.jonswap_peak",
    "Xdyn.Waves.dirac_regular_wave",
    "Xdyn.Waves.dirac_zero"
   ],
   "note": "Over the reals; integrals of Mathlib over (0, +oo)."
  },
  {
   "property": "C117",
   "status": "proved",
   "theorems": [
    "Xdyn.Waves.cos2s_distribution",
    "Xdyn.Waves.dirac_zero"
   ],
   "note": "pow is a parameter of the model, constrained on the exponent 2s by its mathematical value."
  },
  {
   "property": "C118",
   "status": "partial",
   "theorems": [
    "Xdyn.Forces.rudder_wake_dissipates",
    "Xdyn.Forces.rudder_total_power",
    "Xdyn.Forces.rudder_no_thrust_partial",
    "Xdyn.Forces.rudder_no_thrust_refuted",
    "Xdyn.Forces.rudder_thrust_refuted",
    "Xdyn.Forces.loading_nonneg"
   ],
   "note": "No thrust: proved going ahead, refuted going astern. The thrust used for the wake is the norm of the six components of the wrench of the propeller (refuted)."
  },
  {
   "property": "C119",
   "status": "partial",
   "theorems": [
    "Xdyn.Multi.sum_of_forces_power_partial",
    "Xdyn.Multi.sum_of_forces_order",
    "Xdyn.Multi.sum_of_forces_ignores_point",
    "Xdyn.Multi.sum_of_forces_power_refuted"
   ],
   "note": "Proved when the wrenches given in the body frame are given at G; their point of application is ignored otherwise (refuted), which concerns damping and resistance."
  },
  {
   "property": "C120",
   "status": "partial",
   "theorems": [
    "Xdyn.Multi.evaluation_is_a_function_of_the_state_partial",
    "Xdyn.Multi.force_models_get_the_current_state",
    "Xdyn.Multi.evaluation_is_a_function_of_the_state_refuted"
   ],
   "note": "Proved when the force models of a body use only its own frames, those of the bodies before it, and NED; refuted for a force given in the frame of a body that comes after."
  },
  {
   "property": "C121",
   "status": "proved",
   "theorems": [
    "Xdyn.Multi.bodies_do_not_interact",
    "Xdyn.Multi.same_name_takes_forces"
   ],
   "note": "Force models are functions of the body, frames, commands and date (no memory of their own)."
  },
  {
   "property": "C122",
   "status": "partial",
   "theorems": [
    "Xdyn.Closing.turn_between_edges",
    "Xdyn.Closing.next_edge_connected",
    "Xdyn.Closing.next_edge_extreme_partial",
    "Xdyn.Closing.next_edge_example",
    "Xdyn.Closing.reversed_turn_refuted",
    "Xdyn.Closing.next_edge_order_refuted"
   ],
   "note": "Proved when no candidate goes straight on, with the exact number that is compared. Refuted: with a candidate straight ahead, the order of the edges decides; and for an edge run backwards, the number is not a function of the direction of the next edge."
  },
  {
   "property": "C123",
   "status": "partial",
   "theorems": [
    "Xdyn.Grpc.spectra_received_partial",
    "Xdyn.Grpc.spectra_with_phases",
    "Xdyn.Grpc.single_spectrum_with_phases_refuted",
    "Xdyn.Grpc.second_spectrum_phases_refuted"
   ],
   "note": "True without phases. With phases the claim is false: the counter of the inner loop hides the counter of the outer one, so that a single spectrum with phases is undefined behaviour and several spectra all get the same phases (row j of spectrum j)."
  },
  {
   "property": "C124",
   "status": "partial",
   "theorems": [
    "Xdyn.Grpc.failed_call_throws_partial",
    "Xdyn.Grpc.failed_call_throws_refuted"
   ],
   "note": "Proved for the codes known by grpc++; a status with another number goes through the default label and is accepted (refuted)."
  },
  {
   "property": "C125",
   "status": "partial",
   "theorems": [
    "Xdyn.Grpc.wave_information_partial",
    "Xdyn.Grpc.wave_information_content",
    "Xdyn.Grpc.wave_information_sent",
    "Xdyn.Grpc.no_wave_model",
    "Xdyn.Grpc.wave_information_date_refuted",
    "Xdyn.Grpc.pressures_never_sent_refuted",
    "Xdyn.Grpc.distant_velocities_refuted"
   ],
   "note": "Elevations, velocities and spectra proved when the distant model asks for the current date. False otherwise: elevations are computed at the date of the request and labelled with the current date; dynamic pressures can never be obtained (the z of the request is not copied); a distant wave model gives exactly one velocity."
  },
  {
   "property": "C126",
   "status": "proved",
   "theorems": [
    "Xdyn.Grpc.states_sent",
    "Xdyn.Grpc.current_state_sent",
    "Xdyn.Grpc.angles_sent",
    "Xdyn.Grpc.states_always_sent"
   ],
   "note": "For histories recorded together from a new body, any number of records."
  },
  {
   "property": "C127",
   "status": "proved",
   "theorems": [
    "Xdyn.Grpc.distant_force"
   ],
   "note": ""
  },
  {
   "property": "C128",
   "status": "partial",
   "theorems": [
    "Xdyn.Grpc.distant_elevations_and_pressures",
    "Xdyn.Grpc.distant_velocity_partial",
    "Xdyn.Grpc.distant_velocities_rejected_refuted",
    "Xdyn.Grpc.points_are_checked"
   ],
   "note": "Proved for elevations and pressures at any number of points and for the velocity at one point; false for the velocities at several points, which are always rejected."
  },
  {
   "property": "C129",
   "status": "partial",
   "theorems": [
    "Xdyn.JsonApi.response_is_json_partial",
    "Xdyn.JsonApi.nan_response_refuted",
    "Xdyn.JsonApi.quoted_name_refuted"
   ],
   "note": "Proved with a reader of JSON texts for finite states and names without quote, backslash or control character; false for NaN states (text nan) and for names with a quote (not escaped)."
  },
  {
   "property": "C130",
   "status": "proved",
   "theorems": [
    "Xdyn.JsonApi.response_can_be_sent_back"
   ],
   "note": "For finite states (others are not JSON: C129)."
  },
  {
   "property": "C131",
   "status": "proved",
   "theorems": [
    "Xdyn.JsonApi.request_accepted_iff"
   ],
   "note": "From the JSON tree; find_double of ssc is not in the repository and is taken to reject missing keys and values that are not numbers."
  },
  {
   "property": "C132",
   "status": "partial",
   "theorems": [
    "Xdyn.JsonApi.derivatives_response_partial"
   ],
   "note": "Proved for finite derivatives; NaN or infinite derivatives are written nan or inf, as in C129."
  },
  {
   "property": "C133",
   "status": "partial",
   "theorems": [
    "Xdyn.JsonApi.one_answer_partial",
    "Xdyn.JsonApi.error_is_json_partial",
    "Xdyn.JsonApi.no_answer_refuted",
    "Xdyn.JsonApi.quoted_error_refuted"
   ],
   "note": "One answer proved except for mesh and websocket exceptions, for which no answer is sent (refuted); the error is readable when its text has no quote, backslash or control character but line ends (refuted otherwise)."
  },
  {
   "property": "C134",
   "status": "proved",
   "theorems": [
    "Xdyn.Sea.pressure_superposition",
    "Xdyn.Sea.velocity_superposition",
    "Xdyn.Sea.order_of_models",
    "Xdyn.Sea.no_model_is_still_water",
    "Xdyn.Sea.still_water",
    "Xdyn.Sea.sizes_refused",
    "Xdyn.Waves.wave_height_sum"
   ],
   "note": "Airy models with one phase per component (what flatten produces)."
  },
  {
   "property": "C135",
   "status": "partial",
   "theorems": [
    "Xdyn.Sea.relative_wave_height",
    "Xdyn.Sea.bodies_told_their_own_waves_partial",
    "Xdyn.Sea.empty_mesh_gets_the_previous_body",
    "Xdyn.Sea.unknown_frame"
   ],
   "note": "True for hulls with at least one node; a body whose mesh is empty is given the elevations of the previous body (empty_mesh_gets_the_previous_body)."
  },
  {
   "property": "C136",
   "status": "partial",
   "theorems": [
    "Xdyn.Sea.froude_krylov",
    "Xdyn.Sea.froude_krylov_still_water",
    "Xdyn.Sea.froude_krylov_emerged",
    "Xdyn.Sea.froude_krylov_superposition",
    "Xdyn.Sea.froude_krylov_bound",
    "Xdyn.Sea.immersed_triangle_feels_the_waves_partial",
    "Xdyn.Sea.immersed_quadrilateral_without_pressure"
   ],
   "note": "The last clause holds for triangular facets; it is false for quadrilateral facets (those created on the waterline): the mean of the elevations of the vertices is compared with the depth of the centre of gravity."
  },
  {
   "property": "C137",
   "status": "proved",
   "theorems": [
    "Xdyn.Sea.rao_superposition",
    "Xdyn.Sea.rao_wrong_sizes"
   ],
   "note": "The table of phases is assumed to have the size of the table of modules (the code checks the modules only)."
  },
  {
   "property": "C138",
   "status": "proved",
   "theorems": [
    "Xdyn.Setup.rotation_convention",
    "Xdyn.Setup.refused_convention",
    "Xdyn.Setup.initial_states"
   ],
   "note": "The documentation also mentions [z,y',x''] and [psi,phi',theta'']: both are refused. With no body at all the convention is not used."
  },
  {
   "property": "C139",
   "status": "proved",
   "theorems": [
    "Xdyn.Setup.initial_states"
   ],
   "note": "Reals instead of floating point numbers."
  },
  {
   "property": "C140",
   "status": "proved",
   "theorems": [
    "Xdyn.Setup.quaternion_of_rotation",
    "Xdyn.Setup.euler_to_quaternion",
    "Xdyn.Setup.rotationZYX_isRotation"
   ],
   "note": "Eigen's construction of the quaternion (external) is modelled branch by branch."
  },
  {
   "property": "C141",
   "status": "partial",
   "theorems": [
    "Xdyn.Cli.xdyn_exit_partial",
    "Xdyn.Cli.failed_simulation_exits_with_success",
    "Xdyn.Cli.websocket_failure_is_silent",
    "Xdyn.Cli.cs_refused_exits_with_success",
    "Xdyn.Cli.nothing_asked"
   ],
   "note": "Refuted: a simulation that fails ends with status 0, and a websocket failure is not displayed. Proved: a status different from 0 means that nothing was started and a message was displayed; a completed simulation ends with 0."
  },
  {
   "property": "C142",
   "status": "partial",
   "theorems": [
    "Xdyn.Cli.xdyn_checks_partial",
    "Xdyn.Cli.cs_checks",
    "Xdyn.Cli.me_checks_partial",
    "Xdyn.Cli.xdyn_help_starts_simulation",
    "Xdyn.Cli.me_refused_starts_server",
    "Xdyn.Cli.nothing_asked",
    "Xdyn.Cli.help_alone"
   ],
   "note": "Full for xdyn-for-cs. Refuted for xdyn (--help with a YAML file runs without the checks) and xdyn-for-me (a command line that boost refuses starts the server)."
  },
  {
   "property": "C143",
   "status": "partial",
   "theorems": [
    "Xdyn.Cli.named_solver",
    "Xdyn.Cli.server_unknown_solver",
    "Xdyn.Cli.xdyn_unknown_solver_is_euler"
   ],
   "note": "Refuted for xdyn: an unknown name silently means euler."
  },
  {
   "property": "C144",
   "status": "partial",
   "theorems": [
    "Xdyn.Cli.yaml_outputs_partial",
    "Xdyn.Cli.bad_output_drops_the_rest",
    "Xdyn.Cli.missing_data_observes_nothing",
    "Xdyn.Cli.unknown_format_dropped"
   ],
   "note": "Proved for well written elements. Refuted for the others: they are dropped, with all those after them when the format is missing."
  },
  {
   "property": "C145",
   "status": "partial",
   "theorems": [
    "Xdyn.Cli.cli_keeps_yaml_outputs",
    "Xdyn.Cli.wave_file_partial",
    "Xdyn.Cli.wave_name_not_used",
    "Xdyn.Cli.wave_file_refuted"
   ],
   "note": "Refuted for JSON outputs: -o a.json -w w.h5 does not write w.h5."
  },
  {
   "property": "C146",
   "status": "partial",
   "theorems": [
    "Xdyn.Cli.constants_kept_partial",
    "Xdyn.Cli.negative_constants_accepted"
   ],
   "note": "Refuted for negative constants: the check is made on the default values, before those of the file are stored."
  },
  {
   "property": "C147",
   "status": "proved",
   "theorems": [
    "Xdyn.Input.parseWaves_iff",
    "Xdyn.Input.parseDiscretization_iff",
    "Xdyn.Input.parseSpectra_iff",
    "Xdyn.Input.parseWaveOutput_iff",
    "Xdyn.Input.parseDiracSpectrum_iff",
    "Xdyn.Input.parseJonswap_iff",
    "Xdyn.Input.parseHsTp_iff",
    "Xdyn.Input.parseCos2s_iff",
    "Xdyn.Input.parseDefaultWaveModel_iff",
    "Xdyn.Input.waves_never_ub"
   ],
   "note": "Documents are trees of maps, lists and texts; the conversion of texts to numbers and of units to factors is an arbitrary partial function."
  },
  {
   "property": "C148",
   "status": "partial",
   "theorems": [
    "Xdyn.Input.sea_of_file",
    "Xdyn.Input.regular_wave",
    "Xdyn.Input.irregular_wave",
    "Xdyn.Input.energy_fraction_is_ignored"
   ],
   "note": "Everything but the energy fraction is proved; the energy fraction of the file is refuted: two files that differ by it only give the same sea."
  },
  {
   "property": "C149",
   "status": "proved",
   "theorems": [
    "Xdyn.Input.parseSim_iff",
    "Xdyn.Input.parseBody_iff",
    "Xdyn.Input.parsePosition_iff",
    "Xdyn.Input.parseDynamics_iff",
    "Xdyn.Input.parseMatrix6_iff",
    "Xdyn.Input.parseBlockedDof_iff",
    "Xdyn.Input.parseConstants_iff",
    "Xdyn.Input.parseModel_iff",
    "Xdyn.Input.sim_never_ub"
   ],
   "note": ""
  },
  {
   "property": "C150",
   "status": "proved",
   "theorems": [
    "Xdyn.Input.parsePropeller_iff",
    "Xdyn.Input.parseWageningen_iff",
    "Xdyn.Input.parseKtKq_iff",
    "Xdyn.Input.parseRudder_iff",
    "Xdyn.Input.parseConstantForce_iff",
    "Xdyn.Input.parseResistance_iff",
    "Xdyn.Input.parseStationKeeping_iff",
    "Xdyn.Input.parseHeadingKeeping_iff",
    "Xdyn.Input.parseRadiation_iff",
    "Xdyn.Input.parseDiffraction_iff",
    "Xdyn.Input.parseLinearHydrostatic_iff",
    "Xdyn.Input.parseGrpcForce_iff",
    "Xdyn.Input.parseGM_iff",
    "Xdyn.Input.forces_never_ub"
   ],
   "note": "The sense of rotation of propellers is C152, the damping matrices C151."
  },
  {
   "property": "C151",
   "status": "partial",
   "theorems": [
    "Xdyn.Input.damping_matrix_partial",
    "Xdyn.Input.parseDamping_iff",
    "Xdyn.Input.damping_ub_iff",
    "Xdyn.Input.short_row_is_ub",
    "Xdyn.Input.hdb_damping_is_ub",
    "Xdyn.Input.long_row_accepted"
   ],
   "note": "True for six rows of six numbers. Refuted otherwise: a short row or the name of a file is undefined behaviour, what follows the sixth number of a row is ignored."
  },
  {
   "property": "C152",
   "status": "partial",
   "theorems": [
    "Xdyn.Input.documented_rotations_partial",
    "Xdyn.Input.misspelt_rotation_accepted"
   ],
   "note": "The documented values are understood; refuted for the others, which are accepted and mean anticlockwise."
  },
  {
   "property": "C153",
   "status": "partial",
   "theorems": [
    "Xdyn.Input.swallowed_output_partial",
    "Xdyn.Input.swallowed_output_absent",
    "Xdyn.Input.swallowed_output_never_fails",
    "Xdyn.Input.malformed_output_not_reported"
   ],
   "note": "Refuted for malformed sections: they are not reported and part of them is used."
  },
  {
   "property": "C154",
   "status": "proved",
   "theorems": [
    "Xdyn.Input.parseManeuvering_iff"
   ],
   "note": ""
  },
  {
   "property": "C155",
   "status": "proved",
   "theorems": [
    "Xdyn.Input.parseSeed_iff"
   ],
   "note": ""
  },
  {
   "property": "C156",
   "status": "proved",
   "theorems": [
    "Xdyn.Input.parseCommandsNode_iff"
   ],
   "note": ""
  },
  {
   "property": "C157",
   "status": "proved",
   "theorems": [
    "Xdyn.Hdb.hdb_text",
    "Xdyn.Hdb.hdb_unambiguous",
    "Xdyn.Hdb.demo_isFile"
   ],
   "note": "The reader of numbers (Boost.Spirit double_) is any function that reads the numbers followed by a blank, an end of line or the end of the text."
  },
  {
   "property": "C158",
   "status": "partial",
   "theorems": [
    "Xdyn.Hdb.open_bracket_refused_partial",
    "Xdyn.Hdb.hdb_rest_ignored",
    "Xdyn.Hdb.empty_line_hides_the_rest",
    "Xdyn.Hdb.two_empty_lines_hide_the_rest",
    "Xdyn.Hdb.last_value_lost",
    "Xdyn.Hdb.bad_value_truncates",
    "Xdyn.Hdb.short_name_hides_the_rest"
   ],
   "note": "True for a first bracket that is not closed. Refuted: the result of the parser is not looked at, whatever follows the part that has the format is silently ignored."
  },
  {
   "property": "C159",
   "status": "proved",
   "theorems": [
    "Xdyn.Maneuvering.maneuvering_force",
    "Xdyn.Maneuvering.missing_component",
    "Xdyn.Maneuvering.means_unique",
    "Xdyn.Maneuvering.signal_iff",
    "Xdyn.Maneuvering.circular",
    "Xdyn.Maneuvering.demo_hypotheses"
   ],
   "note": "The evaluation ends with F iff every component of F is the value of its name in Spec/ManeuveringForce. Names of keys, commands and constants are assumed distinct and the used texts well written (met by demo_hypotheses). SSC's data source is modelled as signals set and modules evaluated on demand."
  },
  {
   "property": "C160",
   "status": "partial",
   "theorems": [
    "Xdyn.Outputs.outputs_partial",
    "Xdyn.Outputs.same_name",
    "Xdyn.Outputs.mem_outputs",
    "Xdyn.Outputs.buoyancy_overwritten",
    "Xdyn.Outputs.frame_overwritten",
    "Xdyn.Outputs.extra_overwritten"
   ],
   "note": "Full claim false in the code: the centre of buoyancy is written as Bx, By, Bz whatever the body (the last body wins), a controlled force model with the name of its body overwrites its wrench in the body frame, and an extra observation of a distant model named like a state is lost. Proved: when these coincidences are excluded (Distinct), every number due is kept under its name."
  },
  {
   "property": "C161",
   "status": "partial",
   "theorems": [
    "Xdyn.Outputs.ned_wrench_power_partial",
    "Xdyn.Outputs.ned_wrench_error",
    "Xdyn.Outputs.ned_wrench_refuted"
   ],
   "note": "False in the code: Sim::output passes the position of the body in the NED frame where feed expects the application point, so that the torque is wrong (exact error given). Proved: feed itself writes the equivalent wrench when it is given the right point."
  },
  {
   "property": "C162",
   "status": "partial",
   "theorems": [
    "Xdyn.Build.built_partial",
    "Xdyn.Build.build_succeeds",
    "Xdyn.Build.same_name_refuted"
   ],
   "note": "False in the code when two bodies have the same name, which is accepted: the first one silently gets the mesh and the force models of the second. Proved in full for bodies with different names, with success whenever every part of the input is valid."
  },
  {
   "property": "C163",
   "status": "partial",
   "theorems": [
    "Xdyn.Build.parameters_sent_twice_partial",
    "Xdyn.Build.parameters_sent_refuted",
    "Xdyn.Build.history_of_first_models"
   ],
   "note": "False in the code: the controlled force models are constructed twice, so that everything is sent twice; and the length of the history is taken from the first ones, which are thrown away. Proved: exactly what is sent, and that it is never what the file asks for as soon as there is a distant model."
  },
  {
   "property": "C164",
   "status": "partial",
   "theorems": [
    "Xdyn.Hull.orientation_partial",
    "Xdyn.Hull.convex_accepted",
    "Xdyn.Hull.turned_facet_accepted",
    "Xdyn.Hull.two_hulls_refused"
   ],
   "note": "False in the code both ways: a facet turned over is not noticed in a convex mesh of at least twelve facets, and a mesh of two convex hulls with a single orientation is refused. Proved: for every convex mesh with any subset of facets turned over, the exact verdict, and the right orientation when none is turned."
  },
  {
   "property": "C165",
   "status": "proved",
   "theorems": [
    "Xdyn.Sea.makeDiffraction_iff",
    "Xdyn.Sea.diffraction_force",
    "Xdyn.Sea.diffraction_still_water"
   ],
   "note": "The interpolators of SSC are arbitrary functions of the period and of the incidence."
  },
  {
   "property": "C166",
   "status": "proved",
   "theorems": [
    "Xdyn.Sea.diffraction_symmetric",
    "Xdyn.Sea.module_flip",
    "Xdyn.Sea.phase_flip"
   ],
   "note": ""
  },
  {
   "property": "C167",
   "status": "partial",
   "theorems": [
    "Xdyn.Closing.buoyancy_partial",
    "Xdyn.Closing.buoyancy_dry",
    "Xdyn.Closing.buoyancy_refuted"
   ],
   "note": "False for very flat hulls: when all the immersed normals agree with the first one within 1e-6 the volume is taken as zero (a pyramid displacing more than five million cubic metres has no buoyancy). Proved otherwise."
  },
  {
   "property": "C168",
   "status": "partial",
   "theorems": [
    "Xdyn.Obs.tsv_lines_partial",
    "Xdyn.Obs.tsv_fails_iff",
    "Xdyn.Obs.tsv_empty_refuted",
    "Xdyn.Obs.tsv_blank_refuted"
   ],
   "note": "False without any numeric variable (std::length_error, characterised exactly by tsv_fails_iff) and for names with blanks; proved for names without blanks."
  },
  {
   "property": "C169",
   "status": "proved",
   "theorems": [
    "Xdyn.Hdb.database_of_text",
    "Xdyn.Hdb.matrices_of_file",
    "Xdyn.Hdb.body_inertia_of_text",
    "Xdyn.Hdb.list_text"
   ],
   "note": "The interpolation (library) is asked to accept the periods and to go through the points. list_text: every table can be written in a file (hypotheses are met)."
  },
  {
   "property": "C170",
   "status": "proved",
   "theorems": [
    "Xdyn.Hdb.rao_missing",
    "Xdyn.Hdb.database_rao",
    "Xdyn.Hdb.rao_total"
   ],
   "note": ""
  },
  {
   "property": "C171",
   "status": "proved",
   "theorems": [
    "Xdyn.Forces.bollard_pull",
    "Xdyn.Forces.kt_rest",
    "Xdyn.Forces.kq_rest",
    "Xdyn.Forces.force_turning"
   ],
   "note": "Pitch ratios outside of 0.5 to 1.4 are accepted by the code (C58) but not covered."
  },
  {
   "property": "C172",
   "status": "partial",
   "theorems": [
    "Xdyn.Forces.thrust_decreases_partial",
    "Xdyn.Forces.thrust_increases_refuted"
   ],
   "note": "Proved for two to four blades; refuted for five to seven (pitch ratio 1.4, area ratio 0.3, near zero speed)."
  },
  {
   "property": "C173",
   "status": "partial",
   "theorems": [
    "Xdyn.Sim.solvers_complete_partial",
    "Xdyn.Sim.rkck_always_fails",
    "Xdyn.Sim.ballInAir_sound",
    "Xdyn.Sim.evaluation_is_dxdt"
   ],
   "note": "True of euler and rk4. False of rkck: the stages of Cash and Karp are evaluated at 0, 1/5, 3/10, 3/5, 1 and 7/8 of the step; the last one is before the one recorded just before it and History::record throws, so that every simulation with that solver fails in its first step (rkck_always_fails). The methods themselves (SSC, boost odeint) are external and modelled by their documented coefficients."
  },
  {
   "property": "C174",
   "status": "proved",
   "theorems": [
    "Xdyn.Sim.falling_body_rk4",
    "Xdyn.Sim.falling_body_euler",
    "Xdyn.Sim.falling_body_energy",
    "Xdyn.Sim.fall_run",
    "Xdyn.Sim.ballInAir_free",
    "Xdyn.Sim.evaluation_is_dxdt"
   ],
   "note": "End to end: force model, sum of forces, derivatives, solver, histories, normalisation, observations. Over the reals."
  },
  {
   "property": "C175",
   "status": "proved",
   "theorems": [
    "Xdyn.Sim.body_at_rest_stays",
    "Xdyn.Sim.rk4_forward",
    "Xdyn.Sim.euler_forward"
   ],
   "note": "Any force models; none of the states is blocked."
  },
  {
   "property": "C176",
   "status": "proved",
   "theorems": [
    "Xdyn.Sim.floating_body_stays",
    "Xdyn.Sim.floats_buoyancy",
    "Xdyn.Sim.pyramid_floats"
   ],
   "note": "Composition of C167 (buoyancy), gravity and C175. What the intersection of the mesh with the surface gives is a hypothesis (facets that enclose the displaced volume; see C109-C112), and the normals of the immersed facets must not all agree within 1e-6 (see C167)."
  },
  {
   "property": "C177",
   "status": "partial",
   "theorems": [
    "Xdyn.Sim.captive_body_partial",
    "Xdyn.Sim.captive_body_xdyn",
    "Xdyn.Sim.captive_body_cosim",
    "Xdyn.Sim.captive_body_drifts",
    "Xdyn.Sim.drivers_agree"
   ],
   "note": "True when the initial velocity is the prescribed one. Otherwise the claim is false of the code: the positions are integrated with the unforced velocities, so that with the executable xdyn the body moves with its initial velocity for ever while the prescribed velocity is displayed (captive_body_xdyn, and captive_body_drifts: the difference has no bound); in the co-simulation this happens in the first step only (captive_body_cosim). drivers_agree: without blocked states both solvers are the same, so C173-C176 hold for both."
  },
  {
   "property": "C178",
   "status": "proved",
   "theorems": [
    "Xdyn.Sim.bodies_move_as_alone",
    "Xdyn.Sim.falling_fleet"
   ],
   "note": "One evaluation of all the bodies is the juxtaposition of the evaluations of each (frames written by the others do not matter), the normalisation and the Runge-Kutta combinations act body by body, lockstep induction over the stages and over the loop of the solver; blocked states are written at the place of the body (forceStates_emb). falling_fleet composes with C174; an example has a falling body and a towed one."
  },
  {
   "property": "C179",
   "status": "proved",
   "theorems": [
    "Xdyn.Sim.simulation_is_runge_kutta",
    "Xdyn.Sim.executable_is_runge_kutta",
    "Xdyn.Sim.mechanical_memoryless",
    "Xdyn.Sim.euler_textbook",
    "Xdyn.Sim.rk4_textbook"
   ],
   "note": "Memoryless (Props/RungeKutta) says that the derivatives are a function of states and date when the histories keep no past; mechanical_memoryless proves it for the five force models, with the equations of motion of Spec/Push; Spec/RungeKutta is the method without histories nor exceptions; simulation_is_runge_kutta is the loop of solver.hpp and executable_is_runge_kutta the one of the executable xdyn"
  },
  {
   "property": "C180",
   "status": "proved",
   "theorems": [
    "Xdyn.Sim.straight_ahead",
    "Xdyn.Sim.steady_speed_kept",
    "Xdyn.Sim.euler_reaches_steady_speed",
    "Xdyn.Sim.axial_sum"
   ],
   "note": "straight_ahead for every method whose stages never go back in time; axial_thrust, axial_linear, axial_quadratic, axial_resistance, axial_weight give the force models that meet its hypothesis"
  },
  {
   "property": "C181",
   "status": "proved",
   "theorems": [
    "Xdyn.Sim.thrust_against_damping_rk4",
    "Xdyn.Sim.thrust_against_damping_euler",
    "Xdyn.Sim.exact_solution",
    "Xdyn.Sim.euler_converges",
    "Xdyn.Sim.euler_diverges",
    "Xdyn.Sim.rk4_converges"
   ],
   "note": "real arithmetic; exact_solution shows that exactSpeed and exactDistance solve the equation of motion"
  },
  {
   "property": "C182",
   "status": "proved",
   "theorems": [
    "Xdyn.Sim.controlled_memoryless",
    "Xdyn.Sim.translates",
    "Xdyn.Sim.mode_euler",
    "Xdyn.Sim.mode_rk4",
    "Xdyn.Sim.missing_command",
    "Xdyn.Sim.missing_command_stops"
   ],
   "note": "Model/Control has the two controllers as force models of a simulation, Spec/Control their forces as functions of the state; the Euler angles of a matrix (SSC) are a parameter psiOf; commands constant in time (in the code too, except with co-simulation where they change between two calls)"
  },
  {
   "property": "C183",
   "status": "proved",
   "theorems": [
    "Xdyn.Sim.station_keeping_rk4",
    "Xdyn.Sim.exact_oscillation",
    "Xdyn.Sim.station_keeping_energy",
    "Xdyn.Sim.station_keeping_converges",
    "Xdyn.Sim.station_keeping_euler_diverges"
   ],
   "note": "exact_oscillation shows that exactError and exactRate solve the equation of the damped oscillator"
  },
  {
   "property": "C184",
   "status": "partial",
   "theorems": [
    "Xdyn.Sim.station_keeping_holds_partial",
    "Xdyn.Sim.station_keeping_loses"
   ],
   "note": "refuted: the controller multiplies a position error in NED by gains and applies the result along the axes of the body, without turning it by psi. station_keeping_loses: with the same gains in surge and sway the body goes away without bound when 4 ksi^2 cos(psi) < sin(psi)^2 (east, south and west for every damping, and beyond 90 degrees from the north), for every time step with euler and every small one with rk4; station_keeping_holds_partial: it comes to its target when 4 ksi^2 cos(psi) > sin(psi)^2 (ksi = 1 at psi = 0 left out)"
  },
  {
   "property": "C185",
   "status": "partial",
   "theorems": [
    "Xdyn.Server.chained_requests",
    "Xdyn.Server.cut_simulation",
    "Xdyn.Server.translation_cut",
    "Xdyn.Server.body_requests",
    "Xdyn.Server.cut_matters"
   ],
   "note": "Proved: every request of the sequence is answered and the answers are exactly the steps of the method, restarted at each request from the state that was sent (with its quaternion normalised); so nothing changes when normalisation changes nothing, in particular for bodies that do not turn. Refuted for bodies that turn: quaternions are normalised in the answers but not between the steps of a simulation, so that the position depends on where the simulation is cut (3.125 m or 2.72 m in the example)."
  },
  {
   "property": "C186",
   "status": "proved",
   "theorems": [
    "Xdyn.Sim.spin_euler",
    "Xdyn.Sim.euler_turn",
    "Xdyn.Sim.spin_rk4",
    "Xdyn.Sim.turned_matrix"
   ],
   "note": "Real arithmetic. The norm of the quaternion that is shown is 1, unless the comparison of the norm with 1 accepts it as it is; in this case the norm is that of the integrated quaternion, given exactly."
  },
  {
   "property": "C187",
   "status": "proved",
   "theorems": [
    "Xdyn.Sim.glides",
    "Xdyn.Sim.linear_hydrostatics_value",
    "Xdyn.Sim.heave_motion",
    "Xdyn.Sim.heave_rk4",
    "Xdyn.Sim.heave_energy",
    "Xdyn.Sim.heave_settles",
    "Xdyn.Sim.heave_euler_diverges"
   ],
   "note": "Concrete case: a barge of 1000 kg with K = 10 kN/m (`barge_heaves`). The Euler angles (SSC) and the wave model are parameters."
  },
  {
   "property": "C188",
   "status": "proved",
   "theorems": [
    "Xdyn.Sim.kinetic_energy_rate",
    "Xdyn.Sim.mechanical_energy_rate",
    "Xdyn.Sim.mechanical_energy_decreases",
    "Xdyn.Sim.mechanical_energy_conserved",
    "Xdyn.Sim.linear_damping_push_dissipates",
    "Xdyn.Sim.resistance_push_dissipates",
    "Xdyn.Sim.euler_step_energy",
    "Xdyn.Sim.euler_simulation_energy",
    "Xdyn.Sim.euler_free_body_gains_energy"
   ],
   "note": "Coriolis and centripetal forces are computed by SSC: the hypothesis on them (inertialForces, Spec/Energy) is what this function is specified to compute; the equations are those of C179 and C182 (newton, total), proved there to be the ones that the simulation integrates"
  },
  {
   "property": "C189",
   "status": "proved",
   "theorems": [
    "Xdyn.Sim.momentum_balance",
    "Xdyn.Sim.momentum_added_mass",
    "Xdyn.Sim.angular_momentum_balance",
    "Xdyn.Sim.free_body_momentum",
    "Xdyn.Sim.rotating_axes",
    "Xdyn.Sim.motion_unit"
   ],
   "note": "same hypothesis on Coriolis and centripetal forces as C188"
  },
  {
   "property": "C190",
   "status": "partial",
   "theorems": [
    "Xdyn.Sim.linear_hydrostatics_in_waves",
    "Xdyn.Sim.plane_sea_mean",
    "Xdyn.Sim.roll_on_plane_sea",
    "Xdyn.Sim.pitch_on_plane_sea_refuted"
   ],
   "note": "The value in waves and the mean depth are proved. The last part is refuted: with the points laid out as in the documentation the pitch of the sea is taken with the wrong sign, so that the body is pushed away from the sea's slope whatever the distances between the points; the roll has the right sign but the right value only for some distances (see C96)."
  },
  {
   "property": "C191",
   "status": "partial",
   "theorems": [
    "Xdyn.GzTool.gz_table",
    "Xdyn.GzTool.gz_refused",
    "Xdyn.GzTool.gz_dense_body",
    "Xdyn.GzTool.gz_incomplete_table",
    "Xdyn.GzTool.gz_exit_refuted"
   ],
   "note": "Refuted for the exit status, which is 0 whatever happens. The lever is the one without trim (see C70), and the interval in which the depth is searched must contain the equilibrium (see C100)."
  },
  {
   "property": "C192",
   "status": "partial",
   "theorems": [
    "Xdyn.Hdf5.hdf5_file",
    "Xdyn.Hdf5.path_eq",
    "Xdyn.Hdf5.hdf5_same_address_refuted",
    "Xdyn.Hdf5.hdf5_gm_gz_refuted"
   ],
   "note": "Proved when no path of a requested dataset goes through another one. Refuted otherwise: two requested variables at the same address make the run fail, which is the case of GM(body) and GZ(body) written by the GM force model (both at efforts/body/name/GM), and of a variable requested twice, which the CSV output accepts. The HDF5 library is modelled as a tree of groups and datasets."
  },
  {
   "property": "C193",
   "status": "proved",
   "theorems": [
    "Xdyn.Hdf5.spectra_read_back",
    "Xdyn.Hdf5.twoDigits_injective"
   ],
   "note": "The columns are read with readColumn (a specification of reading a one-column dataset); the HDF5 library itself and the representation of numbers in the file are external."
  },
  {
   "property": "C194",
   "status": "proved",
   "theorems": [
    "Xdyn.Hdf5.context_read_back",
    "Xdyn.Hdf5.mesh_read_back",
    "Xdyn.Hdf5.hull_read_back",
    "Xdyn.Hdf5.triangles_read_back",
    "Xdyn.Hdf5.polygons_read_back",
    "Xdyn.Hdf5.degenerate_facet"
   ],
   "note": "hull_read_back goes through the construction of the mesh (C43). EigenHDF5::load is external: it gives the dimensions and the elements of the dataset."
  },
  {
   "property": "C195",
   "status": "proved",
   "theorems": [
    "Xdyn.Sim.simulation_moved"
   ],
   "note": "Exact equality of the observations, for the executable (simSystem) and the co-simulation (sscSystem), for every Runge-Kutta method whose stages do not go back in time. Concrete case: a barge kept by a dynamic positioning system."
  },
  {
   "property": "C196",
   "status": "proved",
   "theorems": [
    "Xdyn.Sim.simulation_mirrored",
    "Xdyn.Sim.stays_in_plane",
    "Xdyn.Sim.isMirror_of_inertia"
   ],
   "note": "Exact equality of the observations, even with the drift of the norm of the quaternion between steps. `isMirror_of_inertia`: what the hypothesis on the body means for its inertia matrix."
  },
  {
   "property": "C197",
   "status": "partial",
   "theorems": [
    "Xdyn.Sim.motion_turned_partial",
    "Xdyn.Sim.simulation_turned_partial",
    "Xdyn.Sim.orientation_matters"
   ],
   "note": "The exact equations of motion do not depend on the orientation (unit quaternions, forces in NED applied at the centre of gravity), and the simulations of bodies that do not turn do not either. The claim is false for bodies that turn: the quaternion is not normalised during the simulation and the rotation matrix of a quaternion that is not a unit quaternion depends on the axes; `orientation_matters` has a free body that is simulated at x = 2.5 m from the heading 0 and at x = -3 m instead of -2.5 m from the heading of 180 degrees."
  },
  {
   "property": "C198",
   "status": "proved",
   "theorems": [
    "Xdyn.Sim.simulation_converges",
    "Xdyn.Sim.motions_unique",
    "Xdyn.Sim.euler_weighted",
    "Xdyn.Sim.rk4_weighted"
   ],
   "note": "One body, no controller (the heading that the controllers use jumps at 180 degrees). The constant is not computed; the bound is of the first order, which is what holds with quadratic damping for any method. Real arithmetic."
  },
  {
   "property": "C199",
   "status": "proved",
   "theorems": [
    "Xdyn.Sim.requests_converge"
   ],
   "note": "One body, no controller, as in C198; each request lasts a whole number of time steps or less than that (the last step is completed by the server). Real arithmetic; the Euler angles (SSC) are a parameter."
  },
  {
   "property": "C200",
   "status": "proved",
   "theorems": [
    "Xdyn.Sim.controlled_simulation_converges",
    "Xdyn.Sim.controlled_requests_converge"
   ],
   "note": "The heading the controllers read (SSC's Euler angles) is a parameter constrained only where the first axis of the body points forward: arctan(R10/R00). The range of headings is that of the property: across 180 degrees the heading jumps, and so does the torque. Real arithmetic. Convergence without controllers and for all headings is C198/C199."
  },
  {
   "property": "C201",
   "status": "proved",
   "theorems": [
    "Xdyn.Sim.rk4_fourth_order",
    "Xdyn.RK4.global_error"
   ],
   "note": "The tableau of ssc's RK4 stepper is part of the model (SSC is not in /repo). Real arithmetic: rounding errors are not modelled. For force models that are only Lipschitz (quadratic damping) see C198."
  },
  {
   "property": "C202",
   "status": "proved",
   "theorems": [
    "Xdyn.Sim.waves_simulation_converges",
    "Xdyn.Sim.waves_run_converges",
    "Xdyn.Sim.waves_sum",
    "Xdyn.Sim.euler_timed",
    "Xdyn.Sim.rk4_timed"
   ],
   "note": "The 2D interpolators of SSC are arbitrary functions; the hypothesis is that, once wrapped and mirrored by the code, they are Lipschitz in the incidence for the periods of the sea (continuous across the wrapping). The sea is the one of the simulator, not a distant one. Real arithmetic."
  },
  {
   "property": "C203",
   "status": "proved",
   "theorems": [
    "Xdyn.Forces.published_series",
    "Xdyn.Forces.published_series_fast",
    "Xdyn.Forces.kt_published",
    "Xdyn.Forces.kq_published"
   ],
   "note": "The published tables are in Spec/BSeries, one line per term (the code has five arrays per polynomial)."
  },
  {
   "property": "C204",
   "status": "partial",
   "theorems": [
    "Xdyn.Waves.added_value",
    "Xdyn.Waves.added_refused",
    "Xdyn.Waves.added_frequencies",
    "Xdyn.Waves.added_spreadings",
    "Xdyn.Waves.added_energy_partial",
    "Xdyn.Waves.regular_wave_added_refuted"
   ],
   "note": "The energy is the sum when the two densities have the same frequencies; refuted for the sum of a regular wave and irregular waves (the regular wave is multiplied by the interval between frequencies)."
  },
  {
   "property": "C205",
   "status": "proved",
   "theorems": [
    "Xdyn.Server.answer_describes",
    "Xdyn.Server.grpc_step",
    "Xdyn.Server.grpc_step_euler",
    "Xdyn.Server.answer_as_request",
    "Xdyn.Server.grpc_simulation",
    "Xdyn.Server.turning_answer"
   ],
   "note": "turning_answer is a concrete request (two states, dates 41 and 42) answered with dates 0, 1, 2"
  },
  {
   "property": "C206",
   "status": "proved",
   "theorems": [
    "Xdyn.Sim.order_of_forces",
    "Xdyn.Sim.split_force",
    "Xdyn.Sim.same_simulation",
    "Xdyn.Sim.same_answers",
    "Xdyn.Sim.same_derivatives",
    "Xdyn.Sim.linear_damping_split",
    "Xdyn.Sim.quadratic_damping_split",
    "Xdyn.Sim.constant_force_split"
   ],
   "note": "in exact arithmetic"
  },
  {
   "property": "C207",
   "status": "proved",
   "theorems": [
    "Xdyn.Sim.fleet_converges",
    "Xdyn.Sim.fleet_fourth_order"
   ],
   "note": "exact arithmetic; the bodies have no controllers and no blocked states; the example after the theorems has two balls thrown at different dates"
  },
  {
   "property": "C208",
   "status": "partial",
   "theorems": [
    "Xdyn.Sim.simulation_scaled_partial",
    "Xdyn.Sim.isScaled_of_inertia",
    "Xdyn.Sim.propeller_scaled",
    "Xdyn.Sim.rudder_scaled",
    "Xdyn.Sim.rudder_units_matter",
    "Xdyn.Sim.heading_units_matter"
   ],
   "note": "Proved for the simulation with the force models and the station-keeping controllers, for the wrench of any propeller and for that of a rudder with a given thrust. False for the controller that keeps the heading (it multiplies the angular acceleration by the inertia in heave: `heading_units_matter`) and for a rudder behind a propeller (the thrust is the norm of six components, newtons added to newton metres: `rudder_units_matter`). `isScaled_of_inertia`: what the hypothesis on the body means for its inertia matrix."
  },
  {
   "property": "C209",
   "status": "partial",
   "theorems": [
    "Xdyn.Obs.wave_message_partial",
    "Xdyn.Obs.grid_members",
    "Xdyn.WaveGrid.grid_wrong_in_rotated_frame"
   ],
   "note": "Proved for frames that are not turned with respect to NED and at least two points where the bounds differ (with one point only, the upper bound is not in the grid); false in a turned frame (grid_wrong_in_rotated_frame). The object is read member by member: the whole line is not valid JSON because the text is between single quotes (C76)."
  },
  {
   "property": "C210",
   "status": "partial",
   "theorems": [
    "Xdyn.Multi.waves_in_ned",
    "Xdyn.Multi.waves_follow_body",
    "Xdyn.Multi.waves_turn_with_body_partial",
    "Xdyn.Multi.unknown_frame_refused",
    "Xdyn.Multi.no_point_nothing_written",
    "Xdyn.Multi.output_waves_partial",
    "Xdyn.Multi.coordinates_of_turned_mesh"
   ],
   "note": "The heights are right in every frame; the coordinates written beside them are wrong in a turned frame (coordinates_of_turned_mesh, the same defect as C54)."
  },
  {
   "property": "C211",
   "status": "proved",
   "theorems": [
    "Xdyn.Hdb.no_debug_text",
    "Xdyn.Hdb.damping_table",
    "Xdyn.Hdb.retardation_table",
    "Xdyn.Hdb.tables_of_the_force_model"
   ],
   "note": "The interpolation (SSC) is assumed to go through its points."
  },
  {
   "property": "C212",
   "status": "partial",
   "theorems": [
    "Xdyn.History.history_text_partial",
    "Xdyn.History.empty_history_not_printed",
    "Xdyn.History.current_date"
   ],
   "note": "Proved for histories with samples; printing a history without samples throws (size() - 1 wraps around)."
  },
  {
   "property": "C213",
   "status": "partial",
   "theorems": [
    "Xdyn.Forces.open_water_point",
    "Xdyn.Forces.open_water_domain",
    "Xdyn.Forces.stopped_open_water_propeller_refused",
    "Xdyn.Forces.reversed_open_water_propeller_refused"
   ],
   "note": "Everything but the last sentence is proved, the interpolation (SSC) being assumed to go through its points. The last sentence is refuted: when the ship moves, a propeller that does not turn has an infinite advance ratio and the evaluation is refused."
  },
  {
   "property": "C214",
   "status": "partial",
   "theorems": [
    "Xdyn.Multi.force_acts_where_declared",
    "Xdyn.Multi.force_carried_by_body",
    "Xdyn.Multi.force_fixed_in_ned",
    "Xdyn.Multi.force_follows_body",
    "Xdyn.Multi.frames_of_an_evaluation",
    "Xdyn.Multi.unknown_force_frame_refused",
    "Xdyn.Multi.force_carried_by_later_body",
    "Xdyn.Multi.force_of_previous_evaluation"
   ],
   "note": "Proved for positions in NED, in the frame of the body itself, of the bodies that come before it in the file, and of force models. Refuted for the frame of a body that comes after (force_of_previous_evaluation): the force uses the place that this body had in the previous evaluation."
  },
  {
   "property": "C215",
   "status": "proved",
   "theorems": [
    "Xdyn.Sim.flight_is_motion",
    "Xdyn.Sim.flight_simulation",
    "Xdyn.Sim.flight_simulation_rk4"
   ],
   "note": "the parabola and the uniform rotation are written in Spec/Flight; the inertia is that of a rigid body at its centre of gravity; example: a plank that tumbles end over end"
  },
  {
   "property": "C216",
   "status": "proved",
   "theorems": [
    "Xdyn.Sim.energy_kept",
    "Xdyn.Sim.energy_kept_rk4",
    "Xdyn.Sim.momentum_kept",
    "Xdyn.Sim.flight_energy_kept"
   ],
   "note": "examples: the energy, the momentum and the angular momentum of the plank of C215"
  },
  {
   "property": "C217",
   "status": "partial",
   "theorems": [
    "Xdyn.Tools.quat2eul_angles_partial",
    "Xdyn.Tools.quat2eul_hypotheses",
    "Xdyn.Tools.usualAngles_gives",
    "Xdyn.Tools.quat2eul_wrong_number",
    "Xdyn.Tools.quat2eul_not_normalised"
   ],
   "note": "Holds for unit quaternions and four arguments; refuted otherwise: with less than four arguments the behaviour is undefined, with more the status is that of a success, and a quaternion of another norm is not normalised and gives another angle."
  },
  {
   "property": "C218",
   "status": "proved",
   "theorems": [
    "Xdyn.Sim.solvers_agree"
   ],
   "note": "One body without controller, as in C198: the existence of the exact solution is a hypothesis. The constant is not computed. Real arithmetic."
  },
  {
   "property": "C219",
   "status": "proved",
   "theorems": [
    "Xdyn.Solver.longer_extends",
    "Xdyn.Solver.longer_fails"
   ],
   "note": "SSC's scheduler is modelled by the current date."
  }
 ]
}