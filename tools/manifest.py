#!/usr/bin/env python3
"""Regenerates /verif/MANIFEST.json."""
import json, os
C = []
def c(pid, status, theorems, note=""):
    C.append(dict(property=pid, status=status, theorems=theorems.split(), note=note))

B="Xdyn.Base91."
c("C01","proved",f"{B}base91_round_trip {B}base91_encode_injective","For every byte list; out-of-table accesses are an explicit failure of the model and are excluded.")
c("C02","proved",f"{B}base91_alphabet")
c("C03","proved",f"{B}base91_skips_foreign")
c("C04","proved",f"{B}base91_size")
B="Xdyn.Base64."
c("C05","proved",f"{B}base64_round_trip")
c("C06","proved",f"{B}base64_shape")
B="Xdyn.Stl."
c("C07","proved",f"{B}stl_round_trip {B}stl_quad_truncated","Coordinates are 32-bit patterns; the (float) conversion of the writer is outside the model. Facets are triangles: stl_quad_truncated shows what happens otherwise.")
B="Xdyn.History."
c("C08","proved",f"{B}history_dates_increasing")
c("C09","proved",f"{B}history_record_outcome")
c("C10","proved",f"{B}history_window")
c("C11","partial",f"{B}history_latest_value_partial {B}history_latest_value_refuted {B}history_last_sample {B}history_index","False in the code when the latest two dates differ by less than 1E-12 (refuted with a concrete history); proved for dates at least 1E-12 apart.")
c("C12","proved",f"{B}history_interpolates {B}history_value_at_sample {B}history_before_first_sample","Equality with the recorded value at a recorded date requires the previous sample to be at least 1E-12 older (snapping).")
c("C13","proved",f"{B}history_bracket")
c("C14","partial",f"{B}history_drop_preserves_window_partial {B}history_drop_refuted","False in the code when several samples are dropped at once (refuted); proved when at most one sample leaves the window.")
c("C15","proved",f"{B}history_average_bounds {B}history_average_whole {B}history_average_negative")
B="Xdyn.Stl."
c("C71","partial",f"{B}stl_complete_file_partial {B}stl_truncated_file_undefined {B}stl_truncated_facet_repeated","False in the code (refuted for every empty body and for a facet cut before its attributes, which is repeated); proved for files that are long enough.")
B="Xdyn.State."
c("C16","proved",f"{B}state_vector_layout {B}state_vector_of_histories")
B="Xdyn.Blocked."
c("C21","partial",f"{B}blocked_states_follow_prescription_partial {B}blocked_derivatives_follow_prescription_partial {B}blocked_states_from_csv_force_u","Proved for prescriptions written in the YAML file; false for prescriptions read in a CSV file, which always force u (BlockedDOF.cpp:159-190 never sets the state): shown by blocked_states_from_csv_force_u.")
c("C22","proved",f"{B}blocked_twice_refused {B}blocked_once_accepted")
B="Xdyn.Body."
c("C23","proved",f"{B}blocking_wrench_closes_equations")
c("C26","proved",f"{B}rotation_matrix_orthogonal {B}quaternion_derivative_orthogonal")
c("C28","proved",f"{B}controlled_wrench_power {B}controlled_wrench_round_trip")
c("C29","partial",f"{B}observed_wrench_error {B}observed_wrench_partial {B}observed_wrench_refuted","False in the code (refuted with a concrete wrench); the exact error is observed_wrench_error and the property is proved when it vanishes.")
c("C30","proved",f"{B}linear_damping_dissipates {B}quadratic_damping_dissipates {B}damping_odd")
c("C31","proved",f"{B}gravity_is_the_weight {B}gravity_power {B}gravity_energy_first_body_only","The potential energy of a body other than the first one uses the depth of the first body (gravity_energy_first_body_only).")
c("C72","proved",f"{B}quaternion_kinematics")
B="Xdyn.Solver."
c("C32","proved",f"{B}fixed_step_grid {B}fixed_step_last_index {B}fixed_step_error {B}null_step_never_ends")
B="Xdyn.Server."
c("C17","proved",f"{B}json_inputs")
c("C18","partial",f"{B}grpc_same_content_partial {B}grpc_dates_lost {B}grpc_dates_lost_euler {B}grpc_history_collapses {B}grpc_dates_refuted","False in the code: the dates are never copied. Proved for everything but the dates; the consequence (start at t=0, history reduced to one state) is proved for every request.")
c("C19","proved",f"{B}grpc_validation {B}grpc_validation_euler {B}grpc_accepted_no_out_of_bounds {B}grpc_accepted_no_out_of_bounds_euler")
c("C20","partial",f"{B}dx_dt_quaternion_refusals_partial {B}dx_dt_quaternion_undefined","False in the code: for every accepted non-empty request the answer is undefined behaviour (implicit conversion of the date to SimServerInputs); only the refusals are as expected.")
c("C27","partial",f"{B}cosim_depends_on_request_partial {B}cosim_history_of_requests_partial {B}cosim_command_leaks {B}cosim_first_forces_leak {B}cosim_empty_request_leaks","False in the code in three cases (refuted); proved for non-empty requests giving all the commands, for everything but the other observations of the first state.")
c("C73","proved",f"{B}dx_dt_euler_answers")
c("C74","proved",f"{B}euler_rates")
B="Xdyn.Sim."
c("C24","partial",f"{B}observed_states_forced_partial {B}observed_states_only_last_body {B}observed_states_forced_refuted","False in the code with several bodies (only the last one is forced in the outputs); proved when only the last body has blocked states.")
c("C25","proved",f"{B}quaternions_normalised")
c("C75","proved",f"{B}all_bodies_forced")
B="Xdyn.Obs."
c("C33","proved",f"{B}observeAll_spec {B}observeAll_error_iff {B}columns","For every observer implementation (the virtual functions are parameters).")
c("C34","proved",f"{B}csv_lines","The formatting of a number is a parameter whose texts contain neither comma nor line break; requested names contain no line break.")
c("C35","partial",f"{B}dict_content_partial {B}dict_names_collide {B}dict_drops_empty_key","Proved for names of the forms 'name' and 'var(key)'; other names collide or are dropped (refutations).")
c("C36","proved",f"{B}flushMap_entries")
c("C37","partial",f"{B}everything_results_partial {B}everything_late_variable_refuted","Proved when the same scalars are observed at all dates; a variable that appears later is put in the result of an earlier date (refutation).")
c("C76","partial",f"{B}json_lines_partial {B}json_second_line_refuted {B}json_wrenches_refuted {B}json_grid_refuted","Proved for requests of scalars that include a plain variable such as t and, if wrenches are requested, a state; false otherwise (three refutations).")
B="Xdyn.Hull."
c("C38","proved",f"{B}edge_classification")
c("C39","proved",f"{B}edge_intersection_point {B}update_new_nodes")
c("C40","proved",f"{B}update_triangles","For every mesh of triangles (as built by build_triangles, and after any history of updates).  Facets with more vertices are not covered: see DESIGN.md for what happens with several vertices exactly on the surface.")
c("C41","proved",f"{B}update_triangles {B}split_area {B}split_volume {B}update_conserves {B}build_update_area","A triangle that lies entirely in the free surface is put on both sides (last case of TriangleOutcome).")
c("C42","proved",f"{B}oriented_edge_roundtrip")
c("C43","proved",f"{B}mesh_building {B}mesh_building_in_bounds {B}mesh_building_overflow {B}build_triangles","mesh_building is conditional on the construction not writing out of the allocated columns, which is proved when no facet has more points than the first one (mesh_building_in_bounds) and refuted otherwise (mesh_building_overflow).")
c("C44","proved",f"{B}volume_translation {B}update_conserves {B}tetrahedron","Triangles whose normal is not rounded to zero.")
c("C77","proved",f"{B}center_of_mass_translation {B}tetrahedron","The closing facets are part of the list of facets; their computation is not modelled.")
B="Xdyn.Waves."
c("C45","proved",f"{B}flatten_components {B}flatten_energy","")
c("C46","partial",f"{B}filter_partial {B}filter_loses_phases","Everything holds but the phases: the filtered spectrum has none, so it cannot be evaluated (refuted). filter is not called by the simulator.")
c("C47","proved",f"{B}angular_frequencies {B}angular_frequencies_single {B}angular_frequencies_error","")
c("C48","partial",f"{B}constant_phases_partial {B}constant_phases_out_of_range {B}random_phases","Refuted when there are more directions than frequencies: std::out_of_range. Random phases are right in all cases.")
c("C49","partial",f"{B}finite_depth_partial {B}positive_depth_is_ignored {B}positive_depth_wave_numbers {B}zero_depth_is_refused","Refuted: the test on the depth is inverted; positive depths are ignored, zero depth is always refused.")
c("C50","proved",f"{B}stretching_bottom {B}stretching_surface {B}stretching_increasing {B}stretching_range {B}stretching_identity","For h > 0, surface above h, 0 <= delta <= 1 (the code does not check these).")
c("C51","proved",f"{B}elevation_superposition {B}elevation_bound {B}elevation_append {B}wave_height_sum {B}elevation_sizes","")
c("C52","partial",f"{B}pressure_above_surface {B}velocity_above_surface {B}pressure_bound {B}attenuation_partial {B}attenuation_finite_partial {B}attenuation_decreases {B}attenuation_above_one","The attenuation is above 1 in crests without stretching (refuted); it is in [0,1] under the mean level or with Wheeler stretching.")
c("C53","proved",f"{B}bretschneider_nonneg {B}bretschneider_defined {B}jonswap_nonneg {B}jonswap_negative {B}piersonMoskowitz_nonneg {B}piersonMoskowitz_eq_bretschneider {B}diracDensity_nonneg {B}diracSpreading_nonneg {B}cos2s_nonneg","Cos2s for integer s: for a non-integer s, pow of a negative number is NaN in C++.")
c("C78","partial",f"{B}directions_partial {B}directional_energy_is_lost","Refuted: the last sector is not counted, 1/n of the energy of a uniform spreading is lost.")
c("C79","proved",f"{B}component_travels {B}component_periodic","")
c("C80","proved",f"{B}velocity_ignores_stretching {B}velocity_above_surface","")
c("C81","proved",f"{B}airy_infinite_depth {B}waveNumber_dispersion","")
c("C82","proved",f"{B}airy_finite_depth","")
c("C83","proved",f"{B}rao_identity {B}rao_bound {B}rao_size","")
c("C84","proved",f"{B}wave_number_exists_unique {B}wave_number_in_bracket {B}wave_number_out_of_bracket {B}waveNumberFunctor_root {B}waveNumberFunctor_derivatives","Halley's iteration (Boost) is not modelled.")
B="Xdyn.WaveGrid."
c("C54","partial",f"{B}mesh_covers {B}mesh_single {B}mesh_increasing {B}mesh_points {B}grid_values {B}grid_partial {B}grid_wrong_in_rotated_frame","Refuted for output frames rotated with respect to NED.")
B="Xdyn.Hdb."
c("C55","proved",f"{B}hdb_frame_conjugation {B}hdb_frame_involution {B}hdb_frame_symmetric {B}hdb_frame_quadratic_form {B}hdb_frame_equivariance","")
c("C56","proved",f"{B}diffraction_periodic {B}diffraction_direct {B}diffraction_mirror {B}diffraction_port_starboard {B}wrapAngle_range","")
c("C85","proved",f"{B}hdb_matrix_from_file {B}hdb_missing_line_refused {B}hdb_periods_not_checked","The periods of the six lines are not compared (hdb_periods_not_checked); a list of sections is assumed to be non-empty, as the grammar guarantees.")
c("C86","partial",f"{B}hdb_rao_from_file_partial {B}hdb_rao_shape {B}rao_of_text_partial {B}hdb_rao_file_order_refuted","Holds when periods and directions are increasing in the file; refuted otherwise.")
c("C87","proved",f"{B}diffraction_wrench_transport {B}diffraction_periods_accepted","")
c("C88","proved",f"{B}regular_intervals_spec {B}radiation_omegas_spec","")
c("C89","partial",f"{B}integration_bound_partial {B}integration_bound_refuted","Refuted: a damping which is small at both ends of the frequency range is neglected entirely.")
c("C90","partial",f"{B}radiation_zero_before_tau_min {B}radiation_window {B}radiation_unsuitable_quadrature {B}radiation_inputs_ignored {B}quadrature_names","Proved: zero before tau min, window. Refuted: the frequency bounds and the calculation point are ignored.")
B="Xdyn.Forces."
c("C57","proved",f"{B}rudder_area_partition {B}rudder_Kr_bounds","")
c("C58","partial",f"{B}wageningen_parameters {B}wageningen_advance_ratio_saturated {B}wageningen_pitch_not_restricted","Number of blades, area ratio and advance ratio: proved. Refuted for the pitch ratio, which only triggers a message.")
c("C91","proved",f"{B}rudder_force_dissipates {B}rudder_force_symmetric {B}rudder_reduction_factor {B}rudder_force_at_rudder","")
c("C92","partial",f"{B}propeller_rotation_sense {B}propeller_formula {B}propeller_stopped_partial {B}propeller_stopped_at_rest_refuted {B}propeller_reverse_pushes_forward","Refuted: not a number when both ship and propeller are stopped; a propeller turning backwards pushes forward.")
c("C93","partial",f"{B}heading_controller_partial {B}heading_controller_refuted {B}heading_controller_not_periodic {B}station_keeping_partial {B}station_keeping_wrong_heading","Refuted: the heading controller uses the heave inertia; the station-keeping force is not rotated to the body frame.")
c("C94","partial",f"{B}linear_damping_dissipates {B}quadratic_damping_dissipates_partial {B}quadratic_damping_refuted {B}quadratic_damping_odd {B}resistance_dissipates","Linear: proved. Quadratic: proved for diagonal matrices, refuted with coupling terms.")
c("C95","partial",f"{B}controlled_force_transport {B}constant_force_partial {B}constant_force_turned_partial {B}constant_force_refuted {B}hydrostatic_at_buoyancy_centre {B}hydrostatic_zero {B}gravity_in_ned","Refuted for constant forces declared in a frame other than the body frame.")
c("C96","partial",f"{B}linear_hydrostatics_equilibrium {B}linear_hydrostatics_rise {B}mean_wave_slope_partial {B}mean_wave_slope_refuted {B}linear_hydrostatics_mean","Refuted: the mean slope is wrong unless the points are one metre apart.")
c("C97","proved",f"{B}gz_is_lever_arm","")

B="Xdyn.Maneuvering."
c("C59","proved",f"{B}compile_value {B}writes_unique {B}compile_command {B}print_not_faithful {B}sign_binds_tighter","character-level parser proved complete for the textbook grammar (Spec/Maneuvering.lean), for every arithmetic and environment. Findings: a sign belongs to the literal, so -3^2 is (-3)^2; maneuvering::print drops needed parentheses")
c("C60","partial",f"{B}compile_prefix_partial {B}compile_ignores_rest {B}compile_unparsable {B}ill_written","false as stated: text that cannot be parsed is ignored and an unreadable expression is NaN; proved: what is compiled is always a well-written beginning of the text, or NaN")
c("C61","partial",f"{B}modelTmax_covers_partial {B}modelTmax_nonneg {B}tame_bounds {B}tmax_too_short_other_state {B}tmax_too_short_variable {B}tmax_too_short_nested","true for constant delays and, for the state x, for delays with sound bounds; false for variable delays of other states, delays given by a variable, and states inside a delay")
B="Xdyn.Config."
c("C62","partial",f"{B}getFormat_extension {B}getFormat_unknown_partial {B}getFormat_sound {B}getFormatForWaveObserver_partial {B}getFormat_four_characters {B}wave_a_H5 {B}ws_file_refused","Every name with a stem and a known extension gets its format, and accepted names have the extension. Refuted for four-character names (std::out_of_range) and for names beginning with ws (refused).")
c("C63","partial",f"{B}fromUrl_sound_partial {B}fromUrl_complete {B}fromUrl_port {B}ws_port_junk","Soundness and completeness of the address grammar; the digits of the port may be followed by anything, e.g. ws://localhost:80abc.")
c("C64","proved",f"{B}getWave_ok_iff {B}getWave_two","Exact characterisation of the accepted inputs and of the result, for every list of parsers and of models.")
c("C65","proved",f"{B}forcesFrom_ok_iff {B}forcesFrom_unknown {B}registeredModels_nodup","Parsers are any functions with distinct names; the twenty registered names are distinct.")
c("C66","proved",f"{B}history_long_enough {B}history_same_name","For distinct body names (the hypothesis is necessary: history_same_name).")
c("C67","partial",f"{B}command_value_partial {B}command_missing {B}getCommands_own {B}namify_injective {B}command_replaced","SSC's interpolation is a parameter of the model. Refuted for model names that contain a parenthesis.")
c("C98","proved",f"{B}defaultOutputter_data","")
B="Xdyn.GZ."
c("C68","proved",f"{B}getPhi_spec {B}getPhi_invalid","For less than 2^30 steps (the loop index is an int, the model has undefined behaviour above).")
c("C69","proved",f"{B}bisectLoop_spec {B}zeq_equilibrium {B}zeq_unique","Over the reals (in floating point the loop does not stop if 1E-10 is below the spacing of the doubles around the draft); monotonicity is only needed for uniqueness.")
c("C70","partial",f"{B}theta_eq_always_zero {B}theta_eq_untrimmed_partial {B}trimmed_body","The result of the Newton-Raphson search is discarded: the trim is always zero. True only for bodies without trim.")
c("C99","proved",f"{B}newton_phi {B}newton_at_equilibrium {B}newton_heeled {B}newton_linear {B}stiffness_linear","")
c("C100","partial",f"{B}symmetric_mesh_partial {B}getZminZmax_bounds {B}zeq_dense_body {B}zeq_light_body","The interval is [zmin,zmax] of the mesh instead of [-zmax,-zmin]: true for symmetric meshes only. Otherwise a wrong draft may be returned silently or an error raised.")
B="Xdyn.StlAscii."
c("C101","proved",f"{B}ascii_stl_round_trip {B}ascii_stl_round_trip_detected {B}ascii_stl_comments {B}ascii_stl_polygons_refused {B}ascii_stl_triangles {B}ascii_stl_needs_endsolid {B}read_never_runs_out {B}exact_digit {B}ascii_stl_crlf_blank_line_undefined {B}ascii_stl_long_word_undefined","Printing and scanning of one number are parameters of the model. Outside the property: a blank line ended by CR LF after a facet, and words of 20 characters or more, are undefined behaviour (shown).")
B="Xdyn.Stl."
c("C102","proved",f"{B}stl_text_iff {B}stl_test_throws_iff {B}stl_unnamed_solid_is_binary","Consequence: a text whose first line is 'solid' without a name is read as binary (stl_unnamed_solid_is_binary).")
B="Xdyn.State."
c("C103","partial",f"{B}current_state_values {B}update_then_current {B}reset_histories_empty {B}current_state_values_refuted","Proved for the first body (index 0). Refuted for index >= 1: get_current_state_values writes past the end of a vector of thirteen values.")
B="Xdyn.GM."
c("C104","partial",f"{B}gz_of_vertical_force {B}gz_lever_partial {B}gz_lever_refuted {B}gm_difference {B}gm_tends_to_slope {B}gm_linear {B}gz_observed_refuted {B}position_rates_without_gm {B}position_rates_with_gm {B}gm_changes_the_motion {B}gm_changes_the_weight","GM converges to the slope of the computed GZ. Refuted: GZ carries an extra cos(theta), the observed GZ is the mean of two values, and the GM model leaves the shared kinematics in the heeled attitude, which changes the position rates and the models evaluated after it.")
B="Xdyn.Hull."
c("C105","proved",f"{B}archimedes_force {B}archimedes_moment {B}archimedes_hull {B}lid_volume","Over the reals, from the facets' forces and the divergence theorem for closed polyhedra.")
c("C106","partial",f"{B}inertia_of_polygon_means {B}depthMoment_mean {B}mean_product {B}fast_point_flat {B}exact_application_point_refuted {B}exact_application_point_refuted_unit {B}g_in_mesh_frame_refuted","The inertia of the polygon is proved exact and the centre of gravity is proved right for horizontal facets; refuted in general: J00 is used for J11, the down direction has length g and the wrong side in heel.")
B="Xdyn.Inertia."
c("C107","partial",f"{B}sdp_exact {B}accepted_accelerations {B}inertia_accepted_partial {B}inertia_accepted_refuted {B}convert_rows","Proved for exactly symmetric matrices (Sylvester's criterion); refuted for the absolute tolerance 1e-10 on symmetry.")
B="Xdyn.Hull."
c("C108","proved",f"{B}mesh_in_body_frame {B}in_body_frame_iff {B}area_in_body_frame {B}centre_in_body_frame {B}distance_in_body_frame","Over the reals.")
c("C109","proved",f"{B}watertight {B}build_watertight","For meshes in general position as stated in the theorem.")
B="Xdyn.Closing."
c("C110","proved",f"{B}group_connected_edges {B}components_exist","Boost's connected_components is a parameter of the model, constrained by its documentation (IsComponents, shown satisfiable for every list of edges)")
c("C111","proved",f"{B}closing_facet_of_polygon {B}contour_of_polygon {B}closing_facets {B}contour_has_no_dead_end {B}single_edge_gives_no_facet {B}group_all_edges","closing_facets is the statement for all the groups of a mesh at once")
c("C112","partial",f"{B}closing_facet_direction {B}contour_direction {B}closing_facets {B}closing_direction_refuted {B}closing_normal_refuted","proved for convex waterlines (and the stored normal for horizontal ones in the body frame); refuted for a star-shaped waterline (wrong direction) and for a heeled body (the normal is hard-coded as (0,0,-1) in the body frame)")
c("C113","partial",f"{B}immersed_volume_partial {B}emerged_volume_partial {B}facetVolume_flat {B}has_facet_iff {B}emerged_facet_counted_once {B}immersed_volume_refuted","proved when the facets are flat and the immersed facets alone do not add up to zero; refuted otherwise: a tetrahedron with its tip at the origin is found to have no volume.")
B="Xdyn.Hull."
c("C114","proved",f"{B}waterline_edges {B}update_loops","")
c("C115","partial",f"{B}hydrostatic_energy_partial {B}hydrostatic_energy_refuted","What holds: the energy changes by the work of Archimedes' force in a translation of the mesh. Refuted: the sign is wrong and the depth is measured in the body frame.")
B="Xdyn.Waves."
c("C116","proved",f"{B}bretschneider_energy_peak {B}piersonMoskowitz_energy_peak {B}jonswap_peak {B}dirac_regular_wave {B}dirac_zero","Over the reals; integrals of Mathlib over (0, +oo).")
c("C117","proved",f"{B}cos2s_distribution {B}dirac_zero","pow is a parameter of the model, constrained on the exponent 2s by its mathematical value.")
B="Xdyn.Forces."
c("C118","partial",f"{B}rudder_wake_dissipates {B}rudder_total_power {B}rudder_no_thrust_partial {B}rudder_no_thrust_refuted {B}rudder_thrust_refuted {B}loading_nonneg","No thrust: proved going ahead, refuted going astern. The thrust used for the wake is the norm of the six components of the wrench of the propeller (refuted).")
B="Xdyn.Multi."
c("C119","partial",f"{B}sum_of_forces_power_partial {B}sum_of_forces_order {B}sum_of_forces_ignores_point {B}sum_of_forces_power_refuted","Proved when the wrenches given in the body frame are given at G; their point of application is ignored otherwise (refuted), which concerns damping and resistance.")
c("C120","partial",f"{B}evaluation_is_a_function_of_the_state_partial {B}force_models_get_the_current_state {B}evaluation_is_a_function_of_the_state_refuted","Proved when the force models of a body use only its own frames, those of the bodies before it, and NED; refuted for a force given in the frame of a body that comes after.")
c("C121","proved",f"{B}bodies_do_not_interact {B}same_name_takes_forces","Force models are functions of the body, frames, commands and date (no memory of their own).")
B="Xdyn.Closing."
c("C122","partial",f"{B}turn_between_edges {B}next_edge_connected {B}next_edge_extreme_partial {B}next_edge_example {B}reversed_turn_refuted {B}next_edge_order_refuted","Proved when no candidate goes straight on, with the exact number that is compared. Refuted: with a candidate straight ahead, the order of the edges decides; and for an edge run backwards, the number is not a function of the direction of the next edge.")
B="Xdyn.Grpc."
c("C123","partial",f"{B}spectra_received_partial {B}spectra_with_phases {B}single_spectrum_with_phases_refuted {B}second_spectrum_phases_refuted","True without phases. With phases the claim is false: the counter of the inner loop hides the counter of the outer one, so that a single spectrum with phases is undefined behaviour and several spectra all get the same phases (row j of spectrum j).")
c("C124","partial",f"{B}failed_call_throws_partial {B}failed_call_throws_refuted","Proved for the codes known by grpc++; a status with another number goes through the default label and is accepted (refuted).")
c("C125","partial",f"{B}wave_information_partial {B}wave_information_content {B}wave_information_sent {B}no_wave_model {B}wave_information_date_refuted {B}pressures_never_sent_refuted {B}distant_velocities_refuted","Elevations, velocities and spectra proved when the distant model asks for the current date. False otherwise: elevations are computed at the date of the request and labelled with the current date; dynamic pressures can never be obtained (the z of the request is not copied); a distant wave model gives exactly one velocity.")
c("C126","proved",f"{B}states_sent {B}current_state_sent {B}angles_sent {B}states_always_sent","For histories recorded together from a new body, any number of records.")
c("C127","proved",f"{B}distant_force","")
B="Xdyn.Grpc."
c("C128","partial",f"{B}distant_elevations_and_pressures {B}distant_velocity_partial {B}distant_velocities_rejected_refuted {B}points_are_checked","Proved for elevations and pressures at any number of points and for the velocity at one point; false for the velocities at several points, which are always rejected.")
B="Xdyn.JsonApi."
c("C129","partial",f"{B}response_is_json_partial {B}nan_response_refuted {B}quoted_name_refuted","Proved with a reader of JSON texts for finite states and names without quote, backslash or control character; false for NaN states (text nan) and for names with a quote (not escaped).")
c("C130","proved",f"{B}response_can_be_sent_back","For finite states (others are not JSON: C129).")
c("C131","proved",f"{B}request_accepted_iff","From the JSON tree; find_double of ssc is not in the repository and is taken to reject missing keys and values that are not numbers.")
c("C132","partial",f"{B}derivatives_response_partial","Proved for finite derivatives; NaN or infinite derivatives are written nan or inf, as in C129.")
c("C133","partial",f"{B}one_answer_partial {B}error_is_json_partial {B}no_answer_refuted {B}quoted_error_refuted","One answer proved except for mesh and websocket exceptions, for which no answer is sent (refuted); the error is readable when its text has no quote, backslash or control character but line ends (refuted otherwise).")
B="Xdyn.Sea."
c("C134","proved",f"{B}pressure_superposition {B}velocity_superposition {B}order_of_models {B}no_model_is_still_water {B}still_water {B}sizes_refused Xdyn.Waves.wave_height_sum","Airy models with one phase per component (what flatten produces).")
c("C135","partial",f"{B}relative_wave_height {B}bodies_told_their_own_waves_partial {B}empty_mesh_gets_the_previous_body {B}unknown_frame","True for hulls with at least one node; a body whose mesh is empty is given the elevations of the previous body (empty_mesh_gets_the_previous_body).")
c("C136","partial",f"{B}froude_krylov {B}froude_krylov_still_water {B}froude_krylov_emerged {B}froude_krylov_superposition {B}froude_krylov_bound {B}immersed_triangle_feels_the_waves_partial {B}immersed_quadrilateral_without_pressure","The last clause holds for triangular facets; it is false for quadrilateral facets (those created on the waterline): the mean of the elevations of the vertices is compared with the depth of the centre of gravity.")
c("C137","proved",f"{B}rao_superposition {B}rao_wrong_sizes","The table of phases is assumed to have the size of the table of modules (the code checks the modules only).")
B="Xdyn.Setup."
c("C138","proved",f"{B}rotation_convention {B}refused_convention {B}initial_states","The documentation also mentions [z,y',x''] and [psi,phi',theta'']: both are refused. With no body at all the convention is not used.")
c("C139","proved",f"{B}initial_states","Reals instead of floating point numbers.")
c("C140","proved",f"{B}quaternion_of_rotation {B}euler_to_quaternion {B}rotationZYX_isRotation","Eigen's construction of the quaternion (external) is modelled branch by branch.")
B="Xdyn.Cli."
c("C141","partial",f"{B}xdyn_exit_partial {B}failed_simulation_exits_with_success {B}websocket_failure_is_silent {B}cs_refused_exits_with_success {B}nothing_asked","Refuted: a simulation that fails ends with status 0, and a websocket failure is not displayed. Proved: a status different from 0 means that nothing was started and a message was displayed; a completed simulation ends with 0.")
c("C142","partial",f"{B}xdyn_checks_partial {B}cs_checks {B}me_checks_partial {B}xdyn_help_starts_simulation {B}me_refused_starts_server {B}nothing_asked {B}help_alone","Full for xdyn-for-cs. Refuted for xdyn (--help with a YAML file runs without the checks) and xdyn-for-me (a command line that boost refuses starts the server).")
c("C143","partial",f"{B}named_solver {B}server_unknown_solver {B}xdyn_unknown_solver_is_euler","Refuted for xdyn: an unknown name silently means euler.")
c("C144","partial",f"{B}yaml_outputs_partial {B}bad_output_drops_the_rest {B}missing_data_observes_nothing {B}unknown_format_dropped","Proved for well written elements. Refuted for the others: they are dropped, with all those after them when the format is missing.")
c("C145","partial",f"{B}cli_keeps_yaml_outputs {B}wave_file_partial {B}wave_name_not_used {B}wave_file_refuted","Refuted for JSON outputs: -o a.json -w w.h5 does not write w.h5.")
c("C146","partial",f"{B}constants_kept_partial {B}negative_constants_accepted","Refuted for negative constants: the check is made on the default values, before those of the file are stored.")
B="Xdyn.Input."
c("C147","proved",f"{B}parseWaves_iff {B}parseDiscretization_iff {B}parseSpectra_iff {B}parseWaveOutput_iff {B}parseDiracSpectrum_iff {B}parseJonswap_iff {B}parseHsTp_iff {B}parseCos2s_iff {B}parseDefaultWaveModel_iff {B}waves_never_ub","Documents are trees of maps, lists and texts; the conversion of texts to numbers and of units to factors is an arbitrary partial function.")
c("C148","partial",f"{B}sea_of_file {B}regular_wave {B}irregular_wave {B}energy_fraction_is_ignored","Everything but the energy fraction is proved; the energy fraction of the file is refuted: two files that differ by it only give the same sea.")
c("C149","proved",f"{B}parseSim_iff {B}parseBody_iff {B}parsePosition_iff {B}parseDynamics_iff {B}parseMatrix6_iff {B}parseBlockedDof_iff {B}parseConstants_iff {B}parseModel_iff {B}sim_never_ub","")
c("C150","proved",f"{B}parsePropeller_iff {B}parseWageningen_iff {B}parseKtKq_iff {B}parseRudder_iff {B}parseConstantForce_iff {B}parseResistance_iff {B}parseStationKeeping_iff {B}parseHeadingKeeping_iff {B}parseRadiation_iff {B}parseDiffraction_iff {B}parseLinearHydrostatic_iff {B}parseGrpcForce_iff {B}parseGM_iff {B}forces_never_ub","The sense of rotation of propellers is C152, the damping matrices C151.")
c("C151","partial",f"{B}damping_matrix_partial {B}parseDamping_iff {B}damping_ub_iff {B}short_row_is_ub {B}hdb_damping_is_ub {B}long_row_accepted","True for six rows of six numbers. Refuted otherwise: a short row or the name of a file is undefined behaviour, what follows the sixth number of a row is ignored.")
c("C152","partial",f"{B}documented_rotations_partial {B}misspelt_rotation_accepted","The documented values are understood; refuted for the others, which are accepted and mean anticlockwise.")
c("C153","partial",f"{B}swallowed_output_partial {B}swallowed_output_absent {B}swallowed_output_never_fails {B}malformed_output_not_reported","Refuted for malformed sections: they are not reported and part of them is used.")
c("C154","proved",f"{B}parseManeuvering_iff","")
c("C155","proved",f"{B}parseSeed_iff","")
c("C156","proved",f"{B}parseCommandsNode_iff","")
B="Xdyn.Hdb."
c("C157","proved",f"{B}hdb_text {B}hdb_unambiguous {B}demo_isFile","The reader of numbers (Boost.Spirit double_) is any function that reads the numbers followed by a blank, an end of line or the end of the text.")
c("C158","partial",f"{B}open_bracket_refused_partial {B}hdb_rest_ignored {B}empty_line_hides_the_rest {B}two_empty_lines_hide_the_rest {B}last_value_lost {B}bad_value_truncates {B}short_name_hides_the_rest","True for a first bracket that is not closed. Refuted: the result of the parser is not looked at, whatever follows the part that has the format is silently ignored.")
B="Xdyn.Maneuvering."
c("C159","proved",f"{B}maneuvering_force {B}missing_component {B}means_unique {B}signal_iff {B}circular {B}demo_hypotheses","The evaluation ends with F iff every component of F is the value of its name in Spec/ManeuveringForce. Names of keys, commands and constants are assumed distinct and the used texts well written (met by demo_hypotheses). SSC's data source is modelled as signals set and modules evaluated on demand.")
B="Xdyn.Outputs."
c("C160","partial",f"{B}outputs_partial {B}same_name {B}mem_outputs {B}buoyancy_overwritten {B}frame_overwritten {B}extra_overwritten","Full claim false in the code: the centre of buoyancy is written as Bx, By, Bz whatever the body (the last body wins), a controlled force model with the name of its body overwrites its wrench in the body frame, and an extra observation of a distant model named like a state is lost. Proved: when these coincidences are excluded (Distinct), every number due is kept under its name.")
c("C161","partial",f"{B}ned_wrench_power_partial {B}ned_wrench_error {B}ned_wrench_refuted","False in the code: Sim::output passes the position of the body in the NED frame where feed expects the application point, so that the torque is wrong (exact error given). Proved: feed itself writes the equivalent wrench when it is given the right point.")
B="Xdyn.Build."
c("C162","partial",f"{B}built_partial {B}build_succeeds {B}same_name_refuted","False in the code when two bodies have the same name, which is accepted: the first one silently gets the mesh and the force models of the second. Proved in full for bodies with different names, with success whenever every part of the input is valid.")
c("C163","partial",f"{B}parameters_sent_twice_partial {B}parameters_sent_refuted {B}history_of_first_models","False in the code: the controlled force models are constructed twice, so that everything is sent twice; and the length of the history is taken from the first ones, which are thrown away. Proved: exactly what is sent, and that it is never what the file asks for as soon as there is a distant model.")
B="Xdyn.Hull."
c("C164","partial",f"{B}orientation_partial {B}convex_accepted {B}turned_facet_accepted {B}two_hulls_refused","False in the code both ways: a facet turned over is not noticed in a convex mesh of at least twelve facets, and a mesh of two convex hulls with a single orientation is refused. Proved: for every convex mesh with any subset of facets turned over, the exact verdict, and the right orientation when none is turned.")
B="Xdyn.Sea."
c("C165","proved",f"{B}makeDiffraction_iff {B}diffraction_force {B}diffraction_still_water","The interpolators of SSC are arbitrary functions of the period and of the incidence.")
c("C166","proved",f"{B}diffraction_symmetric {B}module_flip {B}phase_flip","")
B="Xdyn.Closing."
c("C167","partial",f"{B}buoyancy_partial {B}buoyancy_dry {B}buoyancy_refuted","False for very flat hulls: when all the immersed normals agree with the first one within 1e-6 the volume is taken as zero (a pyramid displacing more than five million cubic metres has no buoyancy). Proved otherwise.")
B="Xdyn.Obs."
c("C168","partial",f"{B}tsv_lines_partial {B}tsv_fails_iff {B}tsv_empty_refuted {B}tsv_blank_refuted","False without any numeric variable (std::length_error, characterised exactly by tsv_fails_iff) and for names with blanks; proved for names without blanks.")
B="Xdyn.Hdb."
c("C169","proved",f"{B}database_of_text {B}matrices_of_file {B}body_inertia_of_text {B}list_text","The interpolation (library) is asked to accept the periods and to go through the points. list_text: every table can be written in a file (hypotheses are met).")
c("C170","proved",f"{B}rao_missing {B}database_rao {B}rao_total","")
B="Xdyn.Forces."
c("C171","proved",f"{B}bollard_pull {B}kt_rest {B}kq_rest {B}force_turning","Pitch ratios outside of 0.5 to 1.4 are accepted by the code (C58) but not covered.")
c("C172","partial",f"{B}thrust_decreases_partial {B}thrust_increases_refuted","Proved for two to four blades; refuted for five to seven (pitch ratio 1.4, area ratio 0.3, near zero speed).")
B="Xdyn.Sim."
c("C173","partial",f"{B}solvers_complete_partial {B}rkck_always_fails {B}ballInAir_sound {B}evaluation_is_dxdt","True of euler and rk4. False of rkck: the stages of Cash and Karp are evaluated at 0, 1/5, 3/10, 3/5, 1 and 7/8 of the step; the last one is before the one recorded just before it and History::record throws, so that every simulation with that solver fails in its first step (rkck_always_fails). The methods themselves (SSC, boost odeint) are external and modelled by their documented coefficients.")
c("C174","proved",f"{B}falling_body_rk4 {B}falling_body_euler {B}falling_body_energy {B}fall_run {B}ballInAir_free {B}evaluation_is_dxdt","End to end: force model, sum of forces, derivatives, solver, histories, normalisation, observations. Over the reals.")
c("C175","proved",f"{B}body_at_rest_stays {B}rk4_forward {B}euler_forward","Any force models; none of the states is blocked.")
B="Xdyn.Sim."
c("C176","proved",f"{B}floating_body_stays {B}floats_buoyancy {B}pyramid_floats","Composition of C167 (buoyancy), gravity and C175. What the intersection of the mesh with the surface gives is a hypothesis (facets that enclose the displaced volume; see C109-C112), and the normals of the immersed facets must not all agree within 1e-6 (see C167).")
B="Xdyn.Sim."
c("C177","partial",f"{B}captive_body_partial {B}captive_body_xdyn {B}captive_body_cosim {B}captive_body_drifts {B}drivers_agree","True when the initial velocity is the prescribed one. Otherwise the claim is false of the code: the positions are integrated with the unforced velocities, so that with the executable xdyn the body moves with its initial velocity for ever while the prescribed velocity is displayed (captive_body_xdyn, and captive_body_drifts: the difference has no bound); in the co-simulation this happens in the first step only (captive_body_cosim). drivers_agree: without blocked states both solvers are the same, so C173-C176 hold for both.")
B="Xdyn.Sim."
c("C178","proved",f"{B}bodies_move_as_alone {B}falling_fleet","One evaluation of all the bodies is the juxtaposition of the evaluations of each (frames written by the others do not matter), the normalisation and the Runge-Kutta combinations act body by body, lockstep induction over the stages and over the loop of the solver; blocked states are written at the place of the body (forceStates_emb). falling_fleet composes with C174; an example has a falling body and a towed one.")
B="Xdyn.Sim."
c("C179","proved",f"{B}simulation_is_runge_kutta {B}executable_is_runge_kutta {B}mechanical_memoryless {B}euler_textbook {B}rk4_textbook","Memoryless (Props/RungeKutta) says that the derivatives are a function of states and date when the histories keep no past; mechanical_memoryless proves it for the five force models, with the equations of motion of Spec/Push; Spec/RungeKutta is the method without histories nor exceptions; simulation_is_runge_kutta is the loop of solver.hpp and executable_is_runge_kutta the one of the executable xdyn")
c("C180","proved",f"{B}straight_ahead {B}steady_speed_kept {B}euler_reaches_steady_speed {B}axial_sum","straight_ahead for every method whose stages never go back in time; axial_thrust, axial_linear, axial_quadratic, axial_resistance, axial_weight give the force models that meet its hypothesis")
c("C181","proved",f"{B}thrust_against_damping_rk4 {B}thrust_against_damping_euler {B}exact_solution {B}euler_converges {B}euler_diverges {B}rk4_converges","real arithmetic; exact_solution shows that exactSpeed and exactDistance solve the equation of motion")
B="Xdyn.Sim."
c("C182","proved",f"{B}controlled_memoryless {B}translates {B}mode_euler {B}mode_rk4 {B}missing_command {B}missing_command_stops","Model/Control has the two controllers as force models of a simulation, Spec/Control their forces as functions of the state; the Euler angles of a matrix (SSC) are a parameter psiOf; commands constant in time (in the code too, except with co-simulation where they change between two calls)")
c("C183","proved",f"{B}station_keeping_rk4 {B}exact_oscillation {B}station_keeping_energy {B}station_keeping_converges {B}station_keeping_euler_diverges","exact_oscillation shows that exactError and exactRate solve the equation of the damped oscillator")
c("C184","partial",f"{B}station_keeping_holds_partial {B}station_keeping_loses","refuted: the controller multiplies a position error in NED by gains and applies the result along the axes of the body, without turning it by psi. station_keeping_loses: with the same gains in surge and sway the body goes away without bound when 4 ksi^2 cos(psi) < sin(psi)^2 (east, south and west for every damping, and beyond 90 degrees from the north), for every time step with euler and every small one with rk4; station_keeping_holds_partial: it comes to its target when 4 ksi^2 cos(psi) > sin(psi)^2 (ksi = 1 at psi = 0 left out)")
B="Xdyn.Server."
c("C185","partial",f"{B}chained_requests {B}cut_simulation {B}translation_cut {B}body_requests {B}cut_matters","Proved: every request of the sequence is answered and the answers are exactly the steps of the method, restarted at each request from the state that was sent (with its quaternion normalised); so nothing changes when normalisation changes nothing, in particular for bodies that do not turn. Refuted for bodies that turn: quaternions are normalised in the answers but not between the steps of a simulation, so that the position depends on where the simulation is cut (3.125 m or 2.72 m in the example).")
B="Xdyn.Sim."
c("C186","proved",f"{B}spin_euler {B}euler_turn {B}spin_rk4 {B}turned_matrix","Real arithmetic. The norm of the quaternion that is shown is 1, unless the comparison of the norm with 1 accepts it as it is; in this case the norm is that of the integrated quaternion, given exactly.")
B="Xdyn.Sim."
c("C187","proved",f"{B}glides {B}linear_hydrostatics_value {B}heave_motion {B}heave_rk4 {B}heave_energy {B}heave_settles {B}heave_euler_diverges","Concrete case: a barge of 1000 kg with K = 10 kN/m (`barge_heaves`). The Euler angles (SSC) and the wave model are parameters.")
B="Xdyn.Sim."
c("C188","proved",f"{B}kinetic_energy_rate {B}mechanical_energy_rate {B}mechanical_energy_decreases {B}mechanical_energy_conserved {B}linear_damping_push_dissipates {B}resistance_push_dissipates {B}euler_step_energy {B}euler_simulation_energy {B}euler_free_body_gains_energy","Coriolis and centripetal forces are computed by SSC: the hypothesis on them (inertialForces, Spec/Energy) is what this function is specified to compute; the equations are those of C179 and C182 (newton, total), proved there to be the ones that the simulation integrates")
c("C189","proved",f"{B}momentum_balance {B}momentum_added_mass {B}angular_momentum_balance {B}free_body_momentum {B}rotating_axes {B}motion_unit","same hypothesis on Coriolis and centripetal forces as C188")
B="Xdyn.Sim."
c("C190","partial",f"{B}linear_hydrostatics_in_waves {B}plane_sea_mean {B}roll_on_plane_sea {B}pitch_on_plane_sea_refuted","The value in waves and the mean depth are proved. The last part is refuted: with the points laid out as in the documentation the pitch of the sea is taken with the wrong sign, so that the body is pushed away from the sea's slope whatever the distances between the points; the roll has the right sign but the right value only for some distances (see C96).")
B="Xdyn.GzTool."
c("C191","partial",f"{B}gz_table {B}gz_refused {B}gz_dense_body {B}gz_incomplete_table {B}gz_exit_refuted","Refuted for the exit status, which is 0 whatever happens. The lever is the one without trim (see C70), and the interval in which the depth is searched must contain the equilibrium (see C100).")
B="Xdyn.Hdf5."
c("C192","partial",f"{B}hdf5_file {B}path_eq {B}hdf5_same_address_refuted {B}hdf5_gm_gz_refuted","Proved when no path of a requested dataset goes through another one. Refuted otherwise: two requested variables at the same address make the run fail, which is the case of GM(body) and GZ(body) written by the GM force model (both at efforts/body/name/GM), and of a variable requested twice, which the CSV output accepts. The HDF5 library is modelled as a tree of groups and datasets.")
B="Xdyn.Hdf5."
c("C193","proved",f"{B}spectra_read_back {B}twoDigits_injective","The columns are read with readColumn (a specification of reading a one-column dataset); the HDF5 library itself and the representation of numbers in the file are external.")
c("C194","proved",f"{B}context_read_back {B}mesh_read_back {B}hull_read_back {B}triangles_read_back {B}polygons_read_back {B}degenerate_facet","hull_read_back goes through the construction of the mesh (C43). EigenHDF5::load is external: it gives the dimensions and the elements of the dataset.")
B="Xdyn.Sim."
c("C195","proved",f"{B}simulation_moved","Exact equality of the observations, for the executable (simSystem) and the co-simulation (sscSystem), for every Runge-Kutta method whose stages do not go back in time. Concrete case: a barge kept by a dynamic positioning system.")
c("C196","proved",f"{B}simulation_mirrored {B}stays_in_plane {B}isMirror_of_inertia","Exact equality of the observations, even with the drift of the norm of the quaternion between steps. `isMirror_of_inertia`: what the hypothesis on the body means for its inertia matrix.")
c("C197","partial",f"{B}motion_turned_partial {B}simulation_turned_partial {B}orientation_matters","The exact equations of motion do not depend on the orientation (unit quaternions, forces in NED applied at the centre of gravity), and the simulations of bodies that do not turn do not either. The claim is false for bodies that turn: the quaternion is not normalised during the simulation and the rotation matrix of a quaternion that is not a unit quaternion depends on the axes; `orientation_matters` has a free body that is simulated at x = 2.5 m from the heading 0 and at x = -3 m instead of -2.5 m from the heading of 180 degrees.")
B="Xdyn.Sim."
c("C198","proved",f"{B}simulation_converges {B}motions_unique {B}euler_weighted {B}rk4_weighted","One body, no controller (the heading that the controllers use jumps at 180 degrees). The constant is not computed; the bound is of the first order, which is what holds with quadratic damping for any method. Real arithmetic.")
B="Xdyn.Sim."
c("C199","proved",f"{B}requests_converge","One body, no controller, as in C198; each request lasts a whole number of time steps or less than that (the last step is completed by the server). Real arithmetic; the Euler angles (SSC) are a parameter.")
B="Xdyn.Sim."
c("C200","proved",f"{B}controlled_simulation_converges {B}controlled_requests_converge","The heading the controllers read (SSC's Euler angles) is a parameter constrained only where the first axis of the body points forward: arctan(R10/R00). The range of headings is that of the property: across 180 degrees the heading jumps, and so does the torque. Real arithmetic. Convergence without controllers and for all headings is C198/C199.")
B="Xdyn.Sim."
c("C201","proved",f"{B}rk4_fourth_order Xdyn.RK4.global_error","The tableau of ssc's RK4 stepper is part of the model (SSC is not in /repo). Real arithmetic: rounding errors are not modelled. For force models that are only Lipschitz (quadratic damping) see C198.")
B="Xdyn.Sim."
c("C202","proved",f"{B}waves_simulation_converges {B}waves_run_converges {B}waves_sum {B}euler_timed {B}rk4_timed","The 2D interpolators of SSC are arbitrary functions; the hypothesis is that, once wrapped and mirrored by the code, they are Lipschitz in the incidence for the periods of the sea (continuous across the wrapping). The sea is the one of the simulator, not a distant one. Real arithmetic.")
B="Xdyn.Forces."
c("C203","proved",f"{B}published_series {B}published_series_fast {B}kt_published {B}kq_published","The published tables are in Spec/BSeries, one line per term (the code has five arrays per polynomial).")
B="Xdyn.Waves."
c("C204","partial",f"{B}added_value {B}added_refused {B}added_frequencies {B}added_spreadings {B}added_energy_partial {B}regular_wave_added_refuted","The energy is the sum when the two densities have the same frequencies; refuted for the sum of a regular wave and irregular waves (the regular wave is multiplied by the interval between frequencies).")
B="Xdyn.Server."
c("C205","proved",f"{B}answer_describes {B}grpc_step {B}grpc_step_euler {B}answer_as_request {B}grpc_simulation {B}turning_answer","turning_answer is a concrete request (two states, dates 41 and 42) answered with dates 0, 1, 2")
B="Xdyn.Sim."
c("C206","proved",f"{B}order_of_forces {B}split_force {B}same_simulation {B}same_answers {B}same_derivatives {B}linear_damping_split {B}quadratic_damping_split {B}constant_force_split","in exact arithmetic")
B="Xdyn.Sim."
c("C207","proved",f"{B}fleet_converges {B}fleet_fourth_order","exact arithmetic; the bodies have no controllers and no blocked states; the example after the theorems has two balls thrown at different dates")
B="Xdyn.Sim."
c("C208","partial",f"{B}simulation_scaled_partial {B}isScaled_of_inertia {B}propeller_scaled {B}rudder_scaled {B}rudder_units_matter {B}heading_units_matter","Proved for the simulation with the force models and the station-keeping controllers, for the wrench of any propeller and for that of a rudder with a given thrust. False for the controller that keeps the heading (it multiplies the angular acceleration by the inertia in heave: `heading_units_matter`) and for a rudder behind a propeller (the thrust is the norm of six components, newtons added to newton metres: `rudder_units_matter`). `isScaled_of_inertia`: what the hypothesis on the body means for its inertia matrix.")
B="Xdyn.Obs."
c("C209","partial",f"{B}wave_message_partial {B}grid_members Xdyn.WaveGrid.grid_wrong_in_rotated_frame","Proved for frames that are not turned with respect to NED and at least two points where the bounds differ (with one point only, the upper bound is not in the grid); false in a turned frame (grid_wrong_in_rotated_frame). The object is read member by member: the whole line is not valid JSON because the text is between single quotes (C76).")
B="Xdyn.Multi."
c("C210","partial",f"{B}waves_in_ned {B}waves_follow_body {B}waves_turn_with_body_partial {B}unknown_frame_refused {B}no_point_nothing_written {B}output_waves_partial {B}coordinates_of_turned_mesh","The heights are right in every frame; the coordinates written beside them are wrong in a turned frame (coordinates_of_turned_mesh, the same defect as C54).")
B="Xdyn.Hdb."
c("C211","proved",f"{B}no_debug_text {B}damping_table {B}retardation_table {B}tables_of_the_force_model","The interpolation (SSC) is assumed to go through its points.")
B="Xdyn.History."
c("C212","partial",f"{B}history_text_partial {B}empty_history_not_printed {B}current_date","Proved for histories with samples; printing a history without samples throws (size() - 1 wraps around).")
B="Xdyn.Forces."
c("C213","partial",f"{B}open_water_point {B}open_water_domain {B}stopped_open_water_propeller_refused {B}reversed_open_water_propeller_refused","Everything but the last sentence is proved, the interpolation (SSC) being assumed to go through its points. The last sentence is refuted: when the ship moves, a propeller that does not turn has an infinite advance ratio and the evaluation is refused.")
B="Xdyn.Multi."
c("C214","partial",f"{B}force_acts_where_declared {B}force_carried_by_body {B}force_fixed_in_ned {B}force_follows_body {B}frames_of_an_evaluation {B}unknown_force_frame_refused {B}force_carried_by_later_body {B}force_of_previous_evaluation","Proved for positions in NED, in the frame of the body itself, of the bodies that come before it in the file, and of force models. Refuted for the frame of a body that comes after (force_of_previous_evaluation): the force uses the place that this body had in the previous evaluation.")
B="Xdyn.Sim."
c("C215","proved",f"{B}flight_is_motion {B}flight_simulation {B}flight_simulation_rk4","the parabola and the uniform rotation are written in Spec/Flight; the inertia is that of a rigid body at its centre of gravity; example: a plank that tumbles end over end")
B="Xdyn.Sim."
c("C216","proved",f"{B}energy_kept {B}energy_kept_rk4 {B}momentum_kept {B}flight_energy_kept","examples: the energy, the momentum and the angular momentum of the plank of C215")
B="Xdyn.Tools."
c("C217","partial",f"{B}quat2eul_angles_partial {B}quat2eul_hypotheses {B}usualAngles_gives {B}quat2eul_wrong_number {B}quat2eul_not_normalised","Holds for unit quaternions and four arguments; refuted otherwise: with less than four arguments the behaviour is undefined, with more the status is that of a success, and a quaternion of another norm is not normalised and gives another angle.")
B="Xdyn.Sim."
c("C218","proved",f"{B}solvers_agree","One body without controller, as in C198: the existence of the exact solution is a hypothesis. The constant is not computed. Real arithmetic.")
B="Xdyn.Solver."
c("C219","proved",f"{B}longer_extends {B}longer_fails","SSC's scheduler is modelled by the current date.")
#--- END
out=os.path.join(os.path.dirname(os.path.abspath(__file__)),"..","MANIFEST.json")
C.sort(key=lambda x:int(x["property"][1:]))
json.dump({"claims":C},open(out,"w"),indent=1)
