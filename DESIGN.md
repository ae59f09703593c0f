# Design of the formal model of sirehna/xdyn

Source: `/repo/code` (C++). Model and proofs: `/verif/lean` (Lean 4.33, Mathlib), one namespace per part of the
code (`Xdyn.History`, `Xdyn.Hull`, `Xdyn.Waves`...).

* `Verif/Model/*.lean` — the model: definitions that transcribe the code function by function, each citing its file and lines.
* `Verif/Spec/*.lean` — small specifications, independent of the model, used by the statements (piecewise linear interpolation,
  textbook expression grammar, oriented sides of polyhedra, JSON and CSV grammars...).
* `Verif/Lemmas/*.lean` — auxiliary lemmas and loop invariants.
* `Verif/Props/*.lean` — the theorems of `MANIFEST.json`, with `example`s showing that their hypotheses hold in concrete
  non-trivial cases.

When a property is false of the code, the manifest says `partial`: a theorem with the suffix `_partial` proves what holds, under explicit
hypotheses, and a theorem with the suffix `_refuted` (or a telling name) proves, on the model of the code, that the full statement fails.
Those refutations are findings about xdyn; they are listed at the end.

`DESIGN.md`, `properties.jsonl` and `MANIFEST.json` are generated by `tools/design.py`, `tools/props.py` and `tools/manifest.py`.
`seeded/LOG.jsonl` records the wrong programs the theorems were tested against.

## Trusted base

* Lean's kernel, and the three standard axioms `propext`, `Classical.choice`, `Quot.sound`. No axiom is added; nothing relies on compiled
  evaluation: concrete computations are done by the kernel (`decide`, `decide +kernel`, `rfl`, `norm_num`). `tools/axioms.py` prints the axioms of every
  theorem of the manifest: all of them depend on a subset of these three (about forty on `propext` and `Quot.sound` only).
* The transcription of the C++ text into `Verif/Model`. It was made by reading; nothing is extracted mechanically.
* **Numbers.** `double` is an element of an arbitrary linearly ordered field, or of `ℝ` when `sin`, `exp`, `sqrt`... occur. Rounding, overflow,
  NaN and infinities are not modelled, except where a NaN or an infinity is the point (`Ratio` for the propellers' advance ratio, `NaN` results of unreadable
  maneuvering expressions). The ULP comparison of `History` is a parameter about which only what is stated is assumed.
  Integers are `Nat`/`Int`; the places where the code could overflow are commented (GZ loop index, bytes and words of base91, base64 and STL are bounded
  explicitly).
* **Errors.** A C++ exception is `Except.error (.throw name)`; undefined behaviour (reading out of an array with `operator[]`, uninitialised values, buffer
  overflow) is the distinct `Except.error .ub`, never a default value that could make a theorem true by accident. `at()` throws.
* **External libraries** (SSC, Eigen, yaml-cpp, Boost, gRPC, HDF5, RapidJSON) are not in `/repo`. Where the code calls them the model uses their documented
  behaviour (3x3 and 6x6 products, `std::map`, a scheduler with fixed steps) or a parameter constrained by its documentation (root finders, connected components,
  quadratures, splines, `atof`/printing of numbers); each such place is commented.

## What is modelled and what is not

Modelled (see the table): base91/base64, binary and text STL, `History`, body states and blocked degrees of freedom, the equations of motion's kinematics, the solver
loop and its observers (CSV, TSV-like, JSON, maps), co-simulation and model-exchange servers up to the message structures, hull meshes (construction, cut by the free
surface, closing facets, volumes, centres, hydrostatic forces), wave models (spectra, discretization, Airy, stretching, wave grids), HDB files from their syntax tree,
diffraction and radiation, the force models listed above, maneuvering expressions from their characters, the builder of the simulation, output formats and addresses, GZ
curves and GM.

Not modelled: YAML, HDF5 and protobuf wire formats (the model starts at the structures they fill), file and console I/O, websocket and gRPC transport, SSC's integration
schemes (the stepper is a parameter), Coriolis terms (SSC), splines and quadratures (parameters), unit conversion (SSC `parse_uv`), Matlab and Python exports, the
documentation examples, command-line help, and floating-point rounding. No property is claimed about them.

## Properties

| id | property | status | what is modelled | how it is proved | theorems |
|---|---|---|---|---|---|
| C01 | base91 round trip | proved — For every byte list; out-of-table accesses are an explicit failure of the model and are excluded. | `Model/Base91`: encoder and decoder as folds over bytes/characters, the bit queue as a `Nat` | invariant between the encoder's queue, the characters emitted and the decoder's queue; induction on the input; counting of emitted bits for C04 | `Base91.base91_round_trip`, `Base91.base91_encode_injective` |
| C02 | base91 output alphabet | proved | `Model/Base91`: encoder and decoder as folds over bytes/characters, the bit queue as a `Nat` | invariant between the encoder's queue, the characters emitted and the decoder's queue; induction on the input; counting of emitted bits for C04 | `Base91.base91_alphabet` |
| C03 | base91 decoder skips foreign characters | proved | `Model/Base91`: encoder and decoder as folds over bytes/characters, the bit queue as a `Nat` | invariant between the encoder's queue, the characters emitted and the decoder's queue; induction on the input; counting of emitted bits for C04 | `Base91.base91_skips_foreign` |
| C04 | base91 size bound | proved | `Model/Base91`: encoder and decoder as folds over bytes/characters, the bit queue as a `Nat` | invariant between the encoder's queue, the characters emitted and the decoder's queue; induction on the input; counting of emitted bits for C04 | `Base91.base91_size` |
| C05 | base64 round trip | proved | `Model/Base64`: encoder and decoder | induction by groups of three bytes, arithmetic on bytes | `Base64.base64_round_trip` |
| C06 | base64 output shape | proved | `Model/Base64`: encoder and decoder | induction by groups of three bytes, arithmetic on bytes | `Base64.base64_shape` |
| C07 | binary STL round trip | proved — Coordinates are 32-bit patterns; the (float) conversion of the writer is outside the model. Facets are triangles: stl_quad_truncated shows what happens otherwise. | `Model/Stl`: binary writer and reader on byte lists, little-endian words | round trip of words and triangles, induction on the facets; C71: what a short file gives, refutation by a concrete file | `Stl.stl_round_trip`, `Stl.stl_quad_truncated` |
| C08 | History dates strictly increase | proved | `Model/History`: every public method of `History` (record, get, average, bracketing loop, dropping), ULP comparison as a parameter | state invariant (increasing dates, window) preserved by every operation, hence for every history of calls; the bisection by well-founded induction; integral of the piecewise linear function for the average; counter-examples for C11 and C14 | `History.history_dates_increasing` |
| C09 | History never looks into the past when recording | proved | `Model/History`: every public method of `History` (record, get, average, bracketing loop, dropping), ULP comparison as a parameter | state invariant (increasing dates, window) preserved by every operation, hence for every history of calls; the bisection by well-founded induction; integral of the piecewise linear function for the average; counter-examples for C11 and C14 | `History.history_record_outcome` |
| C10 | History window length | proved | `Model/History`: every public method of `History` (record, get, average, bracketing loop, dropping), ULP comparison as a parameter | state invariant (increasing dates, window) preserved by every operation, hence for every history of calls; the bisection by well-founded induction; integral of the piecewise linear function for the average; counter-examples for C11 and C14 | `History.history_window` |
| C11 | History returns the latest value at tau = 0 | partial — False in the code when the latest two dates differ by less than 1E-12 (refuted with a concrete history); proved for dates at least 1E-12 apart. | `Model/History`: every public method of `History` (record, get, average, bracketing loop, dropping), ULP comparison as a parameter | state invariant (increasing dates, window) preserved by every operation, hence for every history of calls; the bisection by well-founded induction; integral of the piecewise linear function for the average; counter-examples for C11 and C14 | `History.history_latest_value_partial`, `History.history_latest_value_refuted`, `History.history_last_sample`, `History.history_index` |
| C12 | History interpolates between neighbouring samples | proved — Equality with the recorded value at a recorded date requires the previous sample to be at least 1E-12 older (snapping). | `Model/History`: every public method of `History` (record, get, average, bracketing loop, dropping), ULP comparison as a parameter | state invariant (increasing dates, window) preserved by every operation, hence for every history of calls; the bisection by well-founded induction; integral of the piecewise linear function for the average; counter-examples for C11 and C14 | `History.history_interpolates`, `History.history_value_at_sample`, `History.history_before_first_sample` |
| C13 | History bracketing search | proved | `Model/History`: every public method of `History` (record, get, average, bracketing loop, dropping), ULP comparison as a parameter | state invariant (increasing dates, window) preserved by every operation, hence for every history of calls; the bisection by well-founded induction; integral of the piecewise linear function for the average; counter-examples for C11 and C14 | `History.history_bracket` |
| C14 | Dropping old samples preserves the remaining window | partial — False in the code when several samples are dropped at once (refuted); proved when at most one sample leaves the window. | `Model/History`: every public method of `History` (record, get, average, bracketing loop, dropping), ULP comparison as a parameter | state invariant (increasing dates, window) preserved by every operation, hence for every history of calls; the bisection by well-founded induction; integral of the piecewise linear function for the average; counter-examples for C11 and C14 | `History.history_drop_preserves_window_partial`, `History.history_drop_refuted` |
| C15 | History average | proved | `Model/History`: every public method of `History` (record, get, average, bracketing loop, dropping), ULP comparison as a parameter | state invariant (increasing dates, window) preserved by every operation, hence for every history of calls; the bisection by well-founded induction; integral of the piecewise linear function for the average; counter-examples for C11 and C14 | `History.history_average_bounds`, `History.history_average_whole`, `History.history_average_negative` |
| C16 | State vector layout | proved | `Model/State`: index macros | arithmetic, injectivity and exhaustiveness | `State.state_vector_layout`, `State.state_vector_of_histories` |
| C17 | JSON co-simulation inputs | proved | `Model/Server`, `Model/Server`: JSON and gRPC request conversions | case analysis on arbitrary requests; refutations by concrete requests | `Server.json_inputs` |
| C18 | gRPC requests carry their dates | partial — False in the code: the dates are never copied. Proved for everything but the dates; the consequence (start at t=0, history reduced to one state) is proved for every request. | `Model/Server`, `Model/Server`: JSON and gRPC request conversions | case analysis on arbitrary requests; refutations by concrete requests | `Server.grpc_same_content_partial`, `Server.grpc_dates_lost`, `Server.grpc_dates_lost_euler`, `Server.grpc_history_collapses`, `Server.grpc_dates_refuted` |
| C19 | gRPC request validation | proved | `Model/Server`, `Model/Server`: JSON and gRPC request conversions | case analysis on arbitrary requests; refutations by concrete requests | `Server.grpc_validation`, `Server.grpc_validation_euler`, `Server.grpc_accepted_no_out_of_bounds`, `Server.grpc_accepted_no_out_of_bounds_euler` |
| C20 | gRPC model exchange answers every valid quaternion request | partial — False in the code: for every accepted non-empty request the answer is undefined behaviour (implicit conversion of the date to SimServerInputs); only the refusals are as expected. | `Model/Server`, `Model/Server`: JSON and gRPC request conversions | case analysis on arbitrary requests; refutations by concrete requests | `Server.dx_dt_quaternion_refusals_partial`, `Server.dx_dt_quaternion_undefined` |
| C21 | Blocked states follow their prescription | partial — Proved for prescriptions written in the YAML file; false for prescriptions read in a CSV file, which always force u (BlockedDOF.cpp:159-190 never sets the state): shown by blocked_states_from_csv_force_u. | `Model/BlockedDof`, `Model/Sim`, `Model/Solver`: blocked states, forced derivatives, delta F, observation, stepping callbacks | induction over the lists of blocked states and bodies; uniqueness of keys; algebra for delta F; C24 refuted for two bodies | `Blocked.blocked_states_follow_prescription_partial`, `Blocked.blocked_derivatives_follow_prescription_partial`, `Blocked.blocked_states_from_csv_force_u` |
| C22 | A state cannot be blocked twice | proved | `Model/BlockedDof`, `Model/Sim`, `Model/Solver`: blocked states, forced derivatives, delta F, observation, stepping callbacks | induction over the lists of blocked states and bodies; uniqueness of keys; algebra for delta F; C24 refuted for two bodies | `Blocked.blocked_twice_refused`, `Blocked.blocked_once_accepted` |
| C23 | The reported blocking force closes the equations of motion | proved | `Model/BlockedDof`, `Model/Sim`, `Model/Solver`: blocked states, forced derivatives, delta F, observation, stepping callbacks | induction over the lists of blocked states and bodies; uniqueness of keys; algebra for delta F; C24 refuted for two bodies | `Body.blocking_wrench_closes_equations` |
| C24 | Observed states are the forced states, for every body | partial — False in the code with several bodies (only the last one is forced in the outputs); proved when only the last body has blocked states. | `Model/BlockedDof`, `Model/Sim`, `Model/Solver`: blocked states, forced derivatives, delta F, observation, stepping callbacks | induction over the lists of blocked states and bodies; uniqueness of keys; algebra for delta F; C24 refuted for two bodies | `Sim.observed_states_forced_partial`, `Sim.observed_states_only_last_body`, `Sim.observed_states_forced_refuted` |
| C25 | Quaternion normalisation | proved | `Model/Body`, `Model/State`: quaternions, rotation matrices, Euler angles | algebra and derivatives over ℝ | `Sim.quaternions_normalised` |
| C26 | Quaternion kinematics preserve the norm | proved | `Model/Body`, `Model/State`: quaternions, rotation matrices, Euler angles | algebra and derivatives over ℝ | `Body.rotation_matrix_orthogonal`, `Body.quaternion_derivative_orthogonal` |
| C27 | Co-simulation steps depend on the request only | partial — False in the code in three cases (refuted); proved for non-empty requests giving all the commands, for everything but the other observations of the first state. | `Model/Server`: history and commands kept between requests | induction over the previous requests; refuted when commands are omitted | `Server.cosim_depends_on_request_partial`, `Server.cosim_history_of_requests_partial`, `Server.cosim_command_leaks`, `Server.cosim_first_forces_leak`, `Server.cosim_empty_request_leaks` |
| C28 | Wrench transport is invertible and preserves power | proved | `Model/Forces`, `Model/Body`: changes of point and frame of wrenches | power of a wrench in every rigid motion; refutations with concrete frames | `Body.controlled_wrench_power`, `Body.controlled_wrench_round_trip` |
| C29 | The observed wrench of a controlled force is the computed one | partial — False in the code (refuted with a concrete wrench); the exact error is observed_wrench_error and the property is proved when it vanishes. | `Model/Forces`, `Model/Body`: changes of point and frame of wrenches | power of a wrench in every rigid motion; refutations with concrete frames | `Body.observed_wrench_error`, `Body.observed_wrench_partial`, `Body.observed_wrench_refuted` |
| C30 | Damping dissipates energy | proved | `Model/Forces`, `Model/Body`: rudder, Wageningen propellers, controllers, damping, gravity, constant force, resistance, linear hydrostatics, GZ | algebra and order over an ordered field or ℝ; inf/NaN of the advance ratio modelled explicitly (`Ratio`); refutations by concrete numbers | `Body.linear_damping_dissipates`, `Body.quadratic_damping_dissipates`, `Body.damping_odd` |
| C31 | Gravity is the weight | proved — The potential energy of a body other than the first one uses the depth of the first body (gravity_energy_first_body_only). | `Model/Forces`, `Model/Body`: rudder, Wageningen propellers, controllers, damping, gravity, constant force, resistance, linear hydrostatics, GZ | algebra and order over an ordered field or ℝ; inf/NaN of the advance ratio modelled explicitly (`Ratio`); refutations by concrete numbers | `Body.gravity_is_the_weight`, `Body.gravity_power`, `Body.gravity_energy_first_body_only` |
| C32 | Fixed-step simulation grid | proved | `Model/Solver`: quicksolve with an abstract stepper and scheduler | induction on the steps, termination measure | `Solver.fixed_step_grid`, `Solver.fixed_step_last_index`, `Solver.fixed_step_error`, `Solver.null_step_never_ends` |
| C33 | Output columns are the requested ones | proved — For every observer implementation (the virtual functions are parameters). | `Model/Observer`, `Model/StdMap`, `Model/Config`: observers as transformers of (address, value) streams | induction on requests and observed values; simple JSON/CSV grammars as specification (`Spec/Observer`); refutations by concrete requests | `Obs.observeAll_spec`, `Obs.observeAll_error_iff`, `Obs.columns` |
| C34 | CSV lines have a constant number of fields | proved — The formatting of a number is a parameter whose texts contain neither comma nor line break; requested names contain no line break. | `Model/Observer`, `Model/StdMap`, `Model/Config`: observers as transformers of (address, value) streams | induction on requests and observed values; simple JSON/CSV grammars as specification (`Spec/Observer`); refutations by concrete requests | `Obs.csv_lines` |
| C35 | Every observed value reaches the dictionary outputs once | partial — Proved for names of the forms 'name' and 'var(key)'; other names collide or are dropped (refutations). | `Model/Observer`, `Model/StdMap`, `Model/Config`: observers as transformers of (address, value) streams | induction on requests and observed values; simple JSON/CSV grammars as specification (`Spec/Observer`); refutations by concrete requests | `Obs.dict_content_partial`, `Obs.dict_names_collide`, `Obs.dict_drops_empty_key` |
| C36 | JSON key/value lists are well separated | proved | `Model/Observer`, `Model/StdMap`, `Model/Config`: observers as transformers of (address, value) streams | induction on requests and observed values; simple JSON/CSV grammars as specification (`Spec/Observer`); refutations by concrete requests | `Obs.flushMap_entries` |
| C37 | Co-simulation results contain all the steps and all the variables | partial — Proved when the same scalars are observed at all dates; a variable that appears later is put in the result of an earlier date (refutation). | `Model/Observer`, `Model/StdMap`, `Model/Config`: observers as transformers of (address, value) streams | induction on requests and observed values; simple JSON/CSV grammars as specification (`Spec/Observer`); refutations by concrete requests | `Obs.everything_results_partial`, `Obs.everything_late_variable_refuted` |
| C38 | Edge immersion classification | proved | `Model/Mesh`: edge status, edge and facet splitting, the two loops of the intersector, mesh builder | loop invariants (`EInv`, `FInv`, `SInv`, `WInv`) over arbitrary triangle meshes and immersions; algebra for areas and interpolations | `Hull.edge_classification` |
| C39 | Edge / free surface intersection | proved | `Model/Mesh`: edge status, edge and facet splitting, the two loops of the intersector, mesh builder | loop invariants (`EInv`, `FInv`, `SInv`, `WInv`) over arbitrary triangle meshes and immersions; algebra for areas and interpolations | `Hull.edge_intersection_point`, `Hull.update_new_nodes` |
| C40 | Every facet is classified | proved — For every mesh of triangles (as built by build_triangles, and after any history of updates).  Facets with more vertices are not covered: see DESIGN.md for what happens with several vertices exactly on the surface. | `Model/Mesh`: edge status, edge and facet splitting, the two loops of the intersector, mesh builder | loop invariants (`EInv`, `FInv`, `SInv`, `WInv`) over arbitrary triangle meshes and immersions; algebra for areas and interpolations | `Hull.update_triangles` |
| C41 | Splitting a triangle conserves its area vector | proved — A triangle that lies entirely in the free surface is put on both sides (last case of TriangleOutcome). | `Model/Mesh`: edge status, edge and facet splitting, the two loops of the intersector, mesh builder | loop invariants (`EInv`, `FInv`, `SInv`, `WInv`) over arbitrary triangle meshes and immersions; algebra for areas and interpolations | `Hull.update_triangles`, `Hull.split_area`, `Hull.split_volume`, `Hull.update_conserves`, `Hull.build_update_area` |
| C42 | Oriented edge identifiers | proved | `Model/Mesh`: edge status, edge and facet splitting, the two loops of the intersector, mesh builder | loop invariants (`EInv`, `FInv`, `SInv`, `WInv`) over arbitrary triangle meshes and immersions; algebra for areas and interpolations | `Hull.oriented_edge_roundtrip` |
| C43 | Mesh building shares vertices and edges | proved — mesh_building is conditional on the construction not writing out of the allocated columns, which is proved when no facet has more points than the first one (mesh_building_in_bounds) and refuted otherwise (mesh_building_overflow). | `Model/Mesh`: edge status, edge and facet splitting, the two loops of the intersector, mesh builder | loop invariants (`EInv`, `FInv`, `SInv`, `WInv`) over arbitrary triangle meshes and immersions; algebra for areas and interpolations | `Hull.mesh_building`, `Hull.mesh_building_in_bounds`, `Hull.mesh_building_overflow`, `Hull.build_triangles` |
| C44 | Volume of a closed polyhedron does not depend on the origin | proved — Triangles whose normal is not rounded to zero. | `Model/MeshVolume`, `Model/Hydrostatic`, `Model/MeshFrame`, `Model/Closing`: normals, areas, volumes, centres, hydrostatic forces, changes of frame | closed polyhedra as multisets of oriented sides that cancel; fan decomposition; discrete divergence theorem; refutations by concrete tetrahedra | `Hull.volume_translation`, `Hull.update_conserves`, `Hull.tetrahedron` |
| C45 | Spectrum flattening keeps the energy | proved | `Model/Waves`, `Model/WaveGrid`: discretization, flattening, filtering, phases, stretching, Airy, spectra, spreadings, wave number, wave grids | sums over lists; derivatives, integrals and trigonometry of Mathlib; refutations by concrete spectra | `Waves.flatten_components`, `Waves.flatten_energy` |
| C46 | Spectrum filtering keeps the requested energy | partial — Everything holds but the phases: the filtered spectrum has none, so it cannot be evaluated (refuted). filter is not called by the simulator. | `Model/Waves`, `Model/WaveGrid`: discretization, flattening, filtering, phases, stretching, Airy, spectra, spreadings, wave number, wave grids | sums over lists; derivatives, integrals and trigonometry of Mathlib; refutations by concrete spectra | `Waves.filter_partial`, `Waves.filter_loses_phases` |
| C47 | Frequency discretisation | proved | `Model/Waves`, `Model/WaveGrid`: discretization, flattening, filtering, phases, stretching, Airy, spectra, spreadings, wave number, wave grids | sums over lists; derivatives, integrals and trigonometry of Mathlib; refutations by concrete spectra | `Waves.angular_frequencies`, `Waves.angular_frequencies_single`, `Waves.angular_frequencies_error` |
| C48 | Wave phases | partial — Refuted when there are more directions than frequencies: std::out_of_range. Random phases are right in all cases. | `Model/Waves`, `Model/WaveGrid`: discretization, flattening, filtering, phases, stretching, Airy, spectra, spreadings, wave number, wave grids | sums over lists; derivatives, integrals and trigonometry of Mathlib; refutations by concrete spectra | `Waves.constant_phases_partial`, `Waves.constant_phases_out_of_range`, `Waves.random_phases` |
| C49 | The configured water depth is used | partial — Refuted: the test on the depth is inverted; positive depths are ignored, zero depth is always refused. | `Model/Waves`, `Model/WaveGrid`: discretization, flattening, filtering, phases, stretching, Airy, spectra, spreadings, wave number, wave grids | sums over lists; derivatives, integrals and trigonometry of Mathlib; refutations by concrete spectra | `Waves.finite_depth_partial`, `Waves.positive_depth_is_ignored`, `Waves.positive_depth_wave_numbers`, `Waves.zero_depth_is_refused` |
| C50 | Wave stretching | proved — For h > 0, surface above h, 0 <= delta <= 1 (the code does not check these). | `Model/Waves`, `Model/WaveGrid`: discretization, flattening, filtering, phases, stretching, Airy, spectra, spreadings, wave number, wave grids | sums over lists; derivatives, integrals and trigonometry of Mathlib; refutations by concrete spectra | `Waves.stretching_bottom`, `Waves.stretching_surface`, `Waves.stretching_increasing`, `Waves.stretching_range`, `Waves.stretching_identity` |
| C51 | Airy elevation | proved | `Model/Waves`, `Model/WaveGrid`: discretization, flattening, filtering, phases, stretching, Airy, spectra, spreadings, wave number, wave grids | sums over lists; derivatives, integrals and trigonometry of Mathlib; refutations by concrete spectra | `Waves.elevation_superposition`, `Waves.elevation_bound`, `Waves.elevation_append`, `Waves.wave_height_sum`, `Waves.elevation_sizes` |
| C52 | No dynamic pressure above the free surface | partial — The attenuation is above 1 in crests without stretching (refuted); it is in [0,1] under the mean level or with Wheeler stretching. | `Model/Waves`, `Model/WaveGrid`: discretization, flattening, filtering, phases, stretching, Airy, spectra, spreadings, wave number, wave grids | sums over lists; derivatives, integrals and trigonometry of Mathlib; refutations by concrete spectra | `Waves.pressure_above_surface`, `Waves.velocity_above_surface`, `Waves.pressure_bound`, `Waves.attenuation_partial`, `Waves.attenuation_finite_partial`, `Waves.attenuation_decreases`, `Waves.attenuation_above_one` |
| C53 | Wave spectra are non-negative | proved — Cos2s for integer s: for a non-integer s, pow of a negative number is NaN in C++. | `Model/Waves`, `Model/WaveGrid`: discretization, flattening, filtering, phases, stretching, Airy, spectra, spreadings, wave number, wave grids | sums over lists; derivatives, integrals and trigonometry of Mathlib; refutations by concrete spectra | `Waves.bretschneider_nonneg`, `Waves.bretschneider_defined`, `Waves.jonswap_nonneg`, `Waves.jonswap_negative`, `Waves.piersonMoskowitz_nonneg`, `Waves.piersonMoskowitz_eq_bretschneider`, `Waves.diracDensity_nonneg`, `Waves.diracSpreading_nonneg`, `Waves.cos2s_nonneg` |
| C54 | Wave output mesh | partial — Refuted for output frames rotated with respect to NED. | `Model/Waves`, `Model/WaveGrid`: discretization, flattening, filtering, phases, stretching, Airy, spectra, spreadings, wave number, wave grids | sums over lists; derivatives, integrals and trigonometry of Mathlib; refutations by concrete spectra | `WaveGrid.mesh_covers`, `WaveGrid.mesh_single`, `WaveGrid.mesh_increasing`, `WaveGrid.mesh_points`, `WaveGrid.grid_values`, `WaveGrid.grid_partial`, `WaveGrid.grid_wrong_in_rotated_frame` |
| C55 | Change of frame of hydrodynamic matrices | proved | `Model/Hdb`: HDB tree to tables, change of frame, RAO tables, diffraction, radiation | loop invariants over the sections of the file, matrices over `Fin 6`, angles modulo 2 pi; quadrature and splines are parameters | `Hdb.hdb_frame_conjugation`, `Hdb.hdb_frame_involution`, `Hdb.hdb_frame_symmetric`, `Hdb.hdb_frame_quadratic_form`, `Hdb.hdb_frame_equivariance` |
| C56 | Wave incidence used by diffraction | proved | `Model/Hdb`: HDB tree to tables, change of frame, RAO tables, diffraction, radiation | loop invariants over the sections of the file, matrices over `Fin 6`, angles modulo 2 pi; quadrature and splines are parameters | `Hdb.diffraction_periodic`, `Hdb.diffraction_direct`, `Hdb.diffraction_mirror`, `Hdb.diffraction_port_starboard`, `Hdb.wrapAngle_range` |
| C57 | Rudder area partition | proved | `Model/Forces`, `Model/Body`: rudder, Wageningen propellers, controllers, damping, gravity, constant force, resistance, linear hydrostatics, GZ | algebra and order over an ordered field or ℝ; inf/NaN of the advance ratio modelled explicitly (`Ratio`); refutations by concrete numbers | `Forces.rudder_area_partition`, `Forces.rudder_Kr_bounds` |
| C58 | Wageningen domain | partial — Number of blades, area ratio and advance ratio: proved. Refuted for the pitch ratio, which only triggers a message. | `Model/Forces`, `Model/Body`: rudder, Wageningen propellers, controllers, damping, gravity, constant force, resistance, linear hydrostatics, GZ | algebra and order over an ordered field or ℝ; inf/NaN of the advance ratio modelled explicitly (`Ratio`); refutations by concrete numbers | `Forces.wageningen_parameters`, `Forces.wageningen_advance_ratio_saturated`, `Forces.wageningen_pitch_not_restricted` |
| C59 | Maneuvering expressions: precedence and associativity | proved — character-level parser proved complete for the textbook grammar (Spec/Maneuvering.lean), for every arithmetic and environment. Findings: a sign belongs to the literal, so -3^2 is (-3)^2; maneuvering::print drops needed parentheses | `Model/Maneuvering`, `Model/ManeuveringTmax`: character-level parser (PEG), evaluator, printer, Tmax | `Spec/Maneuvering`: textbook grammar and semantics; completeness and soundness by induction on derivations; refutations by concrete texts | `Maneuvering.compile_value`, `Maneuvering.writes_unique`, `Maneuvering.compile_command`, `Maneuvering.print_not_faithful`, `Maneuvering.sign_binds_tighter` |
| C60 | Maneuvering expressions are entirely read | partial — false as stated: text that cannot be parsed is ignored and an unreadable expression is NaN; proved: what is compiled is always a well-written beginning of the text, or NaN | `Model/Maneuvering`, `Model/ManeuveringTmax`: character-level parser (PEG), evaluator, printer, Tmax | `Spec/Maneuvering`: textbook grammar and semantics; completeness and soundness by induction on derivations; refutations by concrete texts | `Maneuvering.compile_prefix_partial`, `Maneuvering.compile_ignores_rest`, `Maneuvering.compile_unparsable`, `Maneuvering.ill_written` |
| C61 | Maneuvering models get a history long enough | partial — true for constant delays and, for the state x, for delays with sound bounds; false for variable delays of other states, delays given by a variable, and states inside a delay | `Model/Maneuvering`, `Model/ManeuveringTmax`: character-level parser (PEG), evaluator, printer, Tmax | `Spec/Maneuvering`: textbook grammar and semantics; completeness and soundness by induction on derivations; refutations by concrete texts | `Maneuvering.modelTmax_covers_partial`, `Maneuvering.modelTmax_nonneg`, `Maneuvering.tame_bounds`, `Maneuvering.tmax_too_short_other_state`, `Maneuvering.tmax_too_short_variable`, `Maneuvering.tmax_too_short_nested` |
| C62 | Output format from file extension | partial — Every name with a stem and a known extension gets its format, and accepted names have the extension. Refuted for four-character names (std::out_of_range) and for names beginning with ws (refused). | `Model/Config`: output formats, websocket addresses, builder of environment and force models, history lengths, commands | strings as lists of characters; induction on lists of models; refutations by concrete names | `Config.getFormat_extension`, `Config.getFormat_unknown_partial`, `Config.getFormat_sound`, `Config.getFormatForWaveObserver_partial`, `Config.getFormat_four_characters`, `Config.wave_a_H5`, `Config.ws_file_refused` |
| C63 | Websocket address | partial — Soundness and completeness of the address grammar; the digits of the port may be followed by anything, e.g. ws://localhost:80abc. | `Model/Config`: output formats, websocket addresses, builder of environment and force models, history lengths, commands | strings as lists of characters; induction on lists of models; refutations by concrete names | `Config.fromUrl_sound_partial`, `Config.fromUrl_complete`, `Config.fromUrl_port`, `Config.ws_port_junk` |
| C64 | Exactly one wave model | proved — Exact characterisation of the accepted inputs and of the result, for every list of parsers and of models. | `Model/Config`: output formats, websocket addresses, builder of environment and force models, history lengths, commands | strings as lists of characters; induction on lists of models; refutations by concrete names | `Config.getWave_ok_iff`, `Config.getWave_two` |
| C65 | Force models are all built, in order, or an error is raised | proved — Parsers are any functions with distinct names; the twenty registered names are distinct. | `Model/Config`: output formats, websocket addresses, builder of environment and force models, history lengths, commands | strings as lists of characters; induction on lists of models; refutations by concrete names | `Config.forcesFrom_ok_iff`, `Config.forcesFrom_unknown`, `Config.registeredModels_nodup` |
| C66 | History is long enough for every force model | proved — For distinct body names (the hypothesis is necessary: history_same_name). | `Model/Config`: output formats, websocket addresses, builder of environment and force models, history lengths, commands | strings as lists of characters; induction on lists of models; refutations by concrete names | `Config.history_long_enough`, `Config.history_same_name` |
| C67 | Commands | partial — SSC's interpolation is a parameter of the model. Refuted for model names that contain a parenthesis. | `Model/Config`: output formats, websocket addresses, builder of environment and force models, history lengths, commands | strings as lists of characters; induction on lists of models; refutations by concrete names | `Config.command_value_partial`, `Config.command_missing`, `Config.getCommands_own`, `Config.namify_injective`, `Config.command_replaced` |
| C68 | GZ curve abscissae | proved — For less than 2^30 steps (the loop index is an int, the model has undefined behaviour above). | `Model/GZ`: heel angles, bisection, Newton-Raphson, draft interval | bisection invariant and measure; linear case solved exactly; refutations by concrete bodies | `GZ.getPhi_spec`, `GZ.getPhi_invalid` |
| C69 | GZ equilibrium search | proved — Over the reals (in floating point the loop does not stop if 1E-10 is below the spacing of the doubles around the draft); monotonicity is only needed for uniqueness. | `Model/GZ`: heel angles, bisection, Newton-Raphson, draft interval | bisection invariant and measure; linear case solved exactly; refutations by concrete bodies | `GZ.bisectLoop_spec`, `GZ.zeq_equilibrium`, `GZ.zeq_unique` |
| C70 | GZ curves are computed at the equilibrium trim | partial — The result of the Newton-Raphson search is discarded: the trim is always zero. True only for bodies without trim. | `Model/GZ`: heel angles, bisection, Newton-Raphson, draft interval | bisection invariant and measure; linear case solved exactly; refutations by concrete bodies | `GZ.theta_eq_always_zero`, `GZ.theta_eq_untrimmed_partial`, `GZ.trimmed_body` |
| C71 | Truncated binary STL files | partial — False in the code (refuted for every truncated empty body); proved for files that are long enough. | `Model/Stl`: binary writer and reader on byte lists, little-endian words | round trip of words and triangles, induction on the facets; C71: what a short file gives, refutation by a concrete file | `Stl.stl_complete_file_partial`, `Stl.stl_truncated_file_undefined` |
| C72 | Quaternion kinematics | proved | `Model/Body`, `Model/State`: quaternions, rotation matrices, Euler angles | algebra and derivatives over ℝ | `Body.quaternion_kinematics` |
| C73 | gRPC model exchange with Euler angles | proved | `Model/Server`, `Model/Server`: JSON and gRPC request conversions | case analysis on arbitrary requests; refutations by concrete requests | `Server.dx_dt_euler_answers` |
| C74 | Euler angle rates | proved | `Model/Body`, `Model/State`: quaternions, rotation matrices, Euler angles | algebra and derivatives over ℝ | `Server.euler_rates` |
| C75 | The solver forces the blocked states of every body | proved | `Model/BlockedDof`, `Model/Sim`, `Model/Solver`: blocked states, forced derivatives, delta F, observation, stepping callbacks | induction over the lists of blocked states and bodies; uniqueness of keys; algebra for delta F; C24 refuted for two bodies | `Sim.all_bodies_forced` |
| C76 | Each JSON line is well formed | partial — Proved for requests of scalars that include a plain variable such as t and, if wrenches are requested, a state; false otherwise (three refutations). | `Model/Observer`, `Model/StdMap`, `Model/Config`: observers as transformers of (address, value) streams | induction on requests and observed values; simple JSON/CSV grammars as specification (`Spec/Observer`); refutations by concrete requests | `Obs.json_lines_partial`, `Obs.json_second_line_refuted`, `Obs.json_wrenches_refuted`, `Obs.json_grid_refuted` |
| C77 | Centre of mass of a closed hull | proved — The closing facets are part of the list of facets; their computation is not modelled. | `Model/MeshVolume`, `Model/Hydrostatic`, `Model/MeshFrame`, `Model/Closing`: normals, areas, volumes, centres, hydrostatic forces, changes of frame | closed polyhedra as multisets of oriented sides that cancel; fan decomposition; discrete divergence theorem; refutations by concrete tetrahedra | `Hull.center_of_mass_translation`, `Hull.tetrahedron` |
| C78 | Directional spreading over the whole circle | partial — Refuted: the last sector is not counted, 1/n of the energy of a uniform spreading is lost. | `Model/Waves`, `Model/WaveGrid`: discretization, flattening, filtering, phases, stretching, Airy, spectra, spreadings, wave number, wave grids | sums over lists; derivatives, integrals and trigonometry of Mathlib; refutations by concrete spectra | `Waves.directions_partial`, `Waves.directional_energy_is_lost` |
| C79 | Waves travel at their phase speed | proved | `Model/Waves`, `Model/WaveGrid`: discretization, flattening, filtering, phases, stretching, Airy, spectra, spreadings, wave number, wave grids | sums over lists; derivatives, integrals and trigonometry of Mathlib; refutations by concrete spectra | `Waves.component_travels`, `Waves.component_periodic` |
| C80 | Orbital velocities do not depend on the stretching | proved | `Model/Waves`, `Model/WaveGrid`: discretization, flattening, filtering, phases, stretching, Airy, spectra, spreadings, wave number, wave grids | sums over lists; derivatives, integrals and trigonometry of Mathlib; refutations by concrete spectra | `Waves.velocity_ignores_stretching`, `Waves.velocity_above_surface` |
| C81 | Airy velocities and pressure are consistent (infinite depth) | proved | `Model/Waves`, `Model/WaveGrid`: discretization, flattening, filtering, phases, stretching, Airy, spectra, spreadings, wave number, wave grids | sums over lists; derivatives, integrals and trigonometry of Mathlib; refutations by concrete spectra | `Waves.airy_infinite_depth`, `Waves.waveNumber_dispersion` |
| C82 | Airy velocities and pressure are consistent (finite depth) | proved | `Model/Waves`, `Model/WaveGrid`: discretization, flattening, filtering, phases, stretching, Airy, spectra, spreadings, wave number, wave grids | sums over lists; derivatives, integrals and trigonometry of Mathlib; refutations by concrete spectra | `Waves.airy_finite_depth` |
| C83 | RAO evaluation | proved | `Model/Waves`, `Model/WaveGrid`: discretization, flattening, filtering, phases, stretching, Airy, spectra, spreadings, wave number, wave grids | sums over lists; derivatives, integrals and trigonometry of Mathlib; refutations by concrete spectra | `Waves.rao_identity`, `Waves.rao_bound`, `Waves.rao_size` |
| C84 | Finite depth wave number | proved — Halley's iteration (Boost) is not modelled. | `Model/Waves`, `Model/WaveGrid`: discretization, flattening, filtering, phases, stretching, Airy, spectra, spreadings, wave number, wave grids | sums over lists; derivatives, integrals and trigonometry of Mathlib; refutations by concrete spectra | `Waves.wave_number_exists_unique`, `Waves.wave_number_in_bracket`, `Waves.wave_number_out_of_bracket`, `Waves.waveNumberFunctor_root`, `Waves.waveNumberFunctor_derivatives` |
| C85 | Added mass and damping matrices come from the file | proved — The periods of the six lines are not compared (hdb_periods_not_checked); a list of sections is assumed to be non-empty, as the grammar guarantees. | `Model/Hdb`: HDB tree to tables, change of frame, RAO tables, diffraction, radiation | loop invariants over the sections of the file, matrices over `Fin 6`, angles modulo 2 pi; quadrature and splines are parameters | `Hdb.hdb_matrix_from_file`, `Hdb.hdb_missing_line_refused`, `Hdb.hdb_periods_not_checked` |
| C86 | RAO tables come from the file | partial — Holds when periods and directions are increasing in the file; refuted otherwise. | `Model/Hdb`: HDB tree to tables, change of frame, RAO tables, diffraction, radiation | loop invariants over the sections of the file, matrices over `Fin 6`, angles modulo 2 pi; quadrature and splines are parameters | `Hdb.hdb_rao_from_file_partial`, `Hdb.hdb_rao_shape`, `Hdb.rao_of_text_partial`, `Hdb.hdb_rao_file_order_refuted` |
| C87 | Diffraction wrench transport and period check | proved | `Model/Hdb`: HDB tree to tables, change of frame, RAO tables, diffraction, radiation | loop invariants over the sections of the file, matrices over `Fin 6`, angles modulo 2 pi; quadrature and splines are parameters | `Hdb.diffraction_wrench_transport`, `Hdb.diffraction_periods_accepted` |
| C88 | Discretization of the retardation functions | proved | `Model/Hdb`: HDB tree to tables, change of frame, RAO tables, diffraction, radiation | loop invariants over the sections of the file, matrices over `Fin 6`, angles modulo 2 pi; quadrature and splines are parameters | `Hdb.regular_intervals_spec`, `Hdb.radiation_omegas_spec` |
| C89 | Truncation of the cosine transform | partial — Refuted: a damping which is small at both ends of the frequency range is neglected entirely. | `Model/Hdb`: HDB tree to tables, change of frame, RAO tables, diffraction, radiation | loop invariants over the sections of the file, matrices over `Fin 6`, angles modulo 2 pi; quadrature and splines are parameters | `Hdb.integration_bound_partial`, `Hdb.integration_bound_refuted` |
| C90 | Radiation damping | partial — Proved: zero before tau min, window. Refuted: the frequency bounds and the calculation point are ignored. | `Model/Hdb`: HDB tree to tables, change of frame, RAO tables, diffraction, radiation | loop invariants over the sections of the file, matrices over `Fin 6`, angles modulo 2 pi; quadrature and splines are parameters | `Hdb.radiation_zero_before_tau_min`, `Hdb.radiation_window`, `Hdb.radiation_unsuitable_quadrature`, `Hdb.radiation_inputs_ignored`, `Hdb.quadrature_names` |
| C91 | Rudder force | proved | `Model/Forces`, `Model/Body`: rudder, Wageningen propellers, controllers, damping, gravity, constant force, resistance, linear hydrostatics, GZ | algebra and order over an ordered field or ℝ; inf/NaN of the advance ratio modelled explicitly (`Ratio`); refutations by concrete numbers | `Forces.rudder_force_dissipates`, `Forces.rudder_force_symmetric`, `Forces.rudder_reduction_factor`, `Forces.rudder_force_at_rudder` |
| C92 | Propeller force | partial — Refuted: not a number when both ship and propeller are stopped; a propeller turning backwards pushes forward. | `Model/Forces`, `Model/Body`: rudder, Wageningen propellers, controllers, damping, gravity, constant force, resistance, linear hydrostatics, GZ | algebra and order over an ordered field or ℝ; inf/NaN of the advance ratio modelled explicitly (`Ratio`); refutations by concrete numbers | `Forces.propeller_rotation_sense`, `Forces.propeller_formula`, `Forces.propeller_stopped_partial`, `Forces.propeller_stopped_at_rest_refuted`, `Forces.propeller_reverse_pushes_forward` |
| C93 | Heading and station-keeping controllers | partial — Refuted: the heading controller uses the heave inertia; the station-keeping force is not rotated to the body frame. | `Model/Forces`, `Model/Body`: rudder, Wageningen propellers, controllers, damping, gravity, constant force, resistance, linear hydrostatics, GZ | algebra and order over an ordered field or ℝ; inf/NaN of the advance ratio modelled explicitly (`Ratio`); refutations by concrete numbers | `Forces.heading_controller_partial`, `Forces.heading_controller_refuted`, `Forces.heading_controller_not_periodic`, `Forces.station_keeping_partial`, `Forces.station_keeping_wrong_heading` |
| C94 | Linear and quadratic damping models | partial — Linear: proved. Quadratic: proved for diagonal matrices, refuted with coupling terms. | `Model/Forces`, `Model/Body`: rudder, Wageningen propellers, controllers, damping, gravity, constant force, resistance, linear hydrostatics, GZ | algebra and order over an ordered field or ℝ; inf/NaN of the advance ratio modelled explicitly (`Ratio`); refutations by concrete numbers | `Forces.linear_damping_dissipates`, `Forces.quadratic_damping_dissipates_partial`, `Forces.quadratic_damping_refuted`, `Forces.quadratic_damping_odd`, `Forces.resistance_dissipates` |
| C95 | Points of application of forces | partial — Refuted for constant forces declared in a frame other than the body frame. | `Model/Forces`, `Model/Body`: changes of point and frame of wrenches | power of a wrench in every rigid motion; refutations with concrete frames | `Forces.controlled_force_transport`, `Forces.constant_force_partial`, `Forces.constant_force_turned_partial`, `Forces.constant_force_refuted`, `Forces.hydrostatic_at_buoyancy_centre`, `Forces.hydrostatic_zero`, `Forces.gravity_in_ned` |
| C96 | Linear hydrostatics | partial — Refuted: the mean slope is wrong unless the points are one metre apart. | `Model/Forces`, `Model/Body`: rudder, Wageningen propellers, controllers, damping, gravity, constant force, resistance, linear hydrostatics, GZ | algebra and order over an ordered field or ℝ; inf/NaN of the advance ratio modelled explicitly (`Ratio`); refutations by concrete numbers | `Forces.linear_hydrostatics_equilibrium`, `Forces.linear_hydrostatics_rise`, `Forces.mean_wave_slope_partial`, `Forces.mean_wave_slope_refuted`, `Forces.linear_hydrostatics_mean` |
| C97 | Righting lever | proved | `Model/Forces`, `Model/Body`: rudder, Wageningen propellers, controllers, damping, gravity, constant force, resistance, linear hydrostatics, GZ | algebra and order over an ordered field or ℝ; inf/NaN of the advance ratio modelled explicitly (`Ratio`); refutations by concrete numbers | `Forces.gz_is_lever_arm` |
| C98 | Default output contains every state of every body | proved | `Model/Observer`, `Model/StdMap`, `Model/Config`: observers as transformers of (address, value) streams | induction on requests and observed values; simple JSON/CSV grammars as specification (`Spec/Observer`); refutations by concrete requests | `Config.defaultOutputter_data` |
| C99 | Newton-Raphson of the GZ curves | proved | `Model/GZ`: heel angles, bisection, Newton-Raphson, draft interval | bisection invariant and measure; linear case solved exactly; refutations by concrete bodies | `GZ.newton_phi`, `GZ.newton_at_equilibrium`, `GZ.newton_heeled`, `GZ.newton_linear`, `GZ.stiffness_linear` |
| C100 | The draft search interval contains the equilibrium | partial — The interval is [zmin,zmax] of the mesh instead of [-zmax,-zmin]: true for symmetric meshes only. Otherwise a wrong draft may be returned silently or an error raised. | `Model/GZ`: heel angles, bisection, Newton-Raphson, draft interval | bisection invariant and measure; linear case solved exactly; refutations by concrete bodies | `GZ.symmetric_mesh_partial`, `GZ.getZminZmax_bounds`, `GZ.zeq_dense_body`, `GZ.zeq_light_body` |
| C101 | Text STL files: round trip | proved — Printing and scanning of one number are parameters of the model. Outside the property: a blank line ended by CR LF after a facet, and words of 20 characters or more, are undefined behaviour (shown). | `Model/StlAscii`, `Model/Stl`: text writer and reader, detection of the format; printing/scanning of one number is a parameter | line-by-line induction, invariants of the reading loop over arbitrary texts | `StlAscii.ascii_stl_round_trip`, `StlAscii.ascii_stl_round_trip_detected`, `StlAscii.ascii_stl_comments`, `StlAscii.ascii_stl_polygons_refused`, `StlAscii.ascii_stl_triangles`, `StlAscii.ascii_stl_needs_endsolid`, `StlAscii.read_never_runs_out`, `StlAscii.exact_digit`, `StlAscii.ascii_stl_crlf_blank_line_undefined`, `StlAscii.ascii_stl_long_word_undefined` |
| C102 | Text and binary STL data are told apart | proved — Consequence: a text whose first line is 'solid' without a name is read as binary (stl_unnamed_solid_is_binary). | `Model/StlAscii`, `Model/Stl`: text writer and reader, detection of the format; printing/scanning of one number is a parameter | line-by-line induction, invariants of the reading loop over arbitrary texts | `Stl.stl_text_iff`, `Stl.stl_test_throws_iff`, `Stl.stl_unnamed_solid_is_binary` |
| C103 | The state vector rebuilt from a body's history is its last recorded state | partial — Proved for the first body (index 0). Refuted for index >= 1: get_current_state_values writes past the end of a vector of thirteen values. | `Model/State`: body states and their histories | symbolic execution; refutation for the second body | `State.current_state_values`, `State.update_then_current`, `State.reset_histories_empty`, `State.current_state_values_refuted` |
| C104 | GM and GZ outputs | partial — GM converges to the slope of the computed GZ. Refuted: GZ carries an extra cos(theta), the observed GZ is the mean of two values, and the GM model leaves the shared kinematics in the heeled attitude, which changes the position rates and the models evaluated after it. | `Model/GM`: GM force model and its effects on shared state | algebra, limits, and symbolic execution of the shared kinematics | `GM.gz_of_vertical_force`, `GM.gz_lever_partial`, `GM.gz_lever_refuted`, `GM.gm_difference`, `GM.gm_tends_to_slope`, `GM.gm_linear`, `GM.gz_observed_refuted`, `GM.position_rates_without_gm`, `GM.position_rates_with_gm`, `GM.gm_changes_the_motion`, `GM.gm_changes_the_weight` |
| C105 | Archimedes' principle for the fast hydrostatic model | proved — Over the reals, from the facets' forces and the divergence theorem for closed polyhedra. | `Model/MeshVolume`, `Model/Hydrostatic`, `Model/MeshFrame`, `Model/Closing`: normals, areas, volumes, centres, hydrostatic forces, changes of frame | closed polyhedra as multisets of oriented sides that cancel; fan decomposition; discrete divergence theorem; refutations by concrete tetrahedra | `Hull.archimedes_force`, `Hull.archimedes_moment`, `Hull.archimedes_hull`, `Hull.lid_volume` |
| C106 | Application point of the exact hydrostatic model | partial — The inertia of the polygon is proved exact and the centre of gravity is proved right for horizontal facets; refuted in general: J00 is used for J11, the down direction has length g and the wrong side in heel. | `Model/MeshVolume`, `Model/Hydrostatic`, `Model/MeshFrame`, `Model/Closing`: normals, areas, volumes, centres, hydrostatic forces, changes of frame | closed polyhedra as multisets of oriented sides that cancel; fan decomposition; discrete divergence theorem; refutations by concrete tetrahedra | `Hull.inertia_of_polygon_means`, `Hull.depthMoment_mean`, `Hull.mean_product`, `Hull.fast_point_flat`, `Hull.exact_application_point_refuted`, `Hull.exact_application_point_refuted_unit`, `Hull.g_in_mesh_frame_refuted` |
| C107 | An accepted inertia matrix defines a dynamics | partial — Proved for exactly symmetric matrices (Sylvester's criterion); refuted for the absolute tolerance 1e-10 on symmetry. | `Model/Inertia`: checks on the inertia matrices | Sylvester's criterion proved in `Lemmas/Sylvester` for 6x6 matrices; refutation for the absolute tolerance | `Inertia.sdp_exact`, `Inertia.accepted_accelerations`, `Inertia.inertia_accepted_partial`, `Inertia.inertia_accepted_refuted`, `Inertia.convert_rows` |
| C108 | The hull is expressed in the body frame without deformation | proved — Over the reals. | `Model/MeshVolume`, `Model/Hydrostatic`, `Model/MeshFrame`, `Model/Closing`: normals, areas, volumes, centres, hydrostatic forces, changes of frame | closed polyhedra as multisets of oriented sides that cancel; fan decomposition; discrete divergence theorem; refutations by concrete tetrahedra | `Hull.mesh_in_body_frame`, `Hull.in_body_frame_iff`, `Hull.area_in_body_frame`, `Hull.centre_in_body_frame`, `Hull.distance_in_body_frame` |
| C109 | A closed hull stays closed when cut by the free surface | proved — For meshes in general position as stated in the theorem. | `Model/MeshVolume`, `Model/Hydrostatic`, `Model/MeshFrame`, `Model/Closing`: normals, areas, volumes, centres, hydrostatic forces, changes of frame | closed polyhedra as multisets of oriented sides that cancel; fan decomposition; discrete divergence theorem; refutations by concrete tetrahedra | `Hull.watertight`, `Hull.build_watertight` |
| C110 | Waterline edges are grouped by connectivity | proved — Boost's connected_components is a parameter of the model, constrained by its documentation (IsComponents, shown satisfiable for every list of edges) | `Model/Closing`: ClosingFacetComputer (grouping, walk along the contour, orientation) | Boost's components as a specified parameter; the walk by induction along a polygon; convexity for the orientation; refutation by a concrete star | `Closing.group_connected_edges`, `Closing.components_exist` |
| C111 | The closing facet of a polygonal waterline is this polygon | proved — closing_facets is the statement for all the groups of a mesh at once | `Model/Closing`: ClosingFacetComputer (grouping, walk along the contour, orientation) | Boost's components as a specified parameter; the walk by induction along a polygon; convexity for the orientation; refutation by a concrete star | `Closing.closing_facet_of_polygon`, `Closing.contour_of_polygon`, `Closing.closing_facets`, `Closing.contour_has_no_dead_end`, `Closing.single_edge_gives_no_facet`, `Closing.group_all_edges` |
| C112 | Closing facets are oriented outwards | partial — proved for convex waterlines (and the stored normal for horizontal ones in the body frame); refuted for a star-shaped waterline (wrong direction) and for a heeled body (the normal is hard-coded as (0,0,-1) in the body frame) | `Model/Closing`: ClosingFacetComputer (grouping, walk along the contour, orientation) | Boost's components as a specified parameter; the walk by induction along a polygon; convexity for the orientation; refutation by a concrete star | `Closing.closing_facet_direction`, `Closing.contour_direction`, `Closing.closing_facets`, `Closing.closing_direction_refuted`, `Closing.closing_normal_refuted` |
| C113 | Immersed and emerged volumes | partial — proved when the facets are flat and the immersed facets alone do not add up to zero; refuted otherwise: a tetrahedron with its tip at the origin is found to have no volume. | `Model/MeshVolume`, `Model/Hydrostatic`, `Model/MeshFrame`, `Model/Closing`: normals, areas, volumes, centres, hydrostatic forces, changes of frame | closed polyhedra as multisets of oriented sides that cancel; fan decomposition; discrete divergence theorem; refutations by concrete tetrahedra | `Closing.immersed_volume_partial`, `Closing.emerged_volume_partial`, `Closing.facetVolume_flat`, `Closing.has_facet_iff`, `Closing.emerged_facet_counted_once`, `Closing.immersed_volume_refuted` |
| C114 | Waterline edges | proved | `Model/Mesh`: edge status, edge and facet splitting, the two loops of the intersector, mesh builder | loop invariants (`EInv`, `FInv`, `SInv`, `WInv`) over arbitrary triangle meshes and immersions; algebra for areas and interpolations | `Hull.waterline_edges`, `Hull.update_loops` |
| C115 | Potential energy of the hydrostatic force | partial — What holds: the energy changes by the work of Archimedes' force in a translation of the mesh. Refuted: the sign is wrong and the depth is measured in the body frame. | `Model/MeshVolume`, `Model/Hydrostatic`, `Model/MeshFrame`, `Model/Closing`: normals, areas, volumes, centres, hydrostatic forces, changes of frame | closed polyhedra as multisets of oriented sides that cancel; fan decomposition; discrete divergence theorem; refutations by concrete tetrahedra | `Hull.hydrostatic_energy_partial`, `Hull.hydrostatic_energy_refuted` |
| C116 | Energy and peak of the wave spectra | proved — Over the reals; integrals of Mathlib over (0, +oo). | `Model/Waves`, `Model/WaveGrid`: discretization, flattening, filtering, phases, stretching, Airy, spectra, spreadings, wave number, wave grids | sums over lists; derivatives, integrals and trigonometry of Mathlib; refutations by concrete spectra | `Waves.bretschneider_energy_peak`, `Waves.piersonMoskowitz_energy_peak`, `Waves.jonswap_peak`, `Waves.dirac_regular_wave`, `Waves.dirac_zero` |
| C117 | Directional spreadings | proved — pow is a parameter of the model, constrained on the exponent 2s by its mathematical value. | `Model/Waves`, `Model/WaveGrid`: discretization, flattening, filtering, phases, stretching, Airy, spectra, spreadings, wave number, wave grids | sums over lists; derivatives, integrals and trigonometry of Mathlib; refutations by concrete spectra | `Waves.cos2s_distribution`, `Waves.dirac_zero` |
| C118 | Rudder behind a propeller | partial — No thrust: proved going ahead, refuted going astern. The thrust used for the wake is the norm of the six components of the wrench of the propeller (refuted). | `Model/Forces`, `Model/Body`: rudder, Wageningen propellers, controllers, damping, gravity, constant force, resistance, linear hydrostatics, GZ | algebra and order over an ordered field or ℝ; inf/NaN of the advance ratio modelled explicitly (`Ratio`); refutations by concrete numbers | `Forces.rudder_wake_dissipates`, `Forces.rudder_total_power`, `Forces.rudder_no_thrust_partial`, `Forces.rudder_no_thrust_refuted`, `Forces.rudder_thrust_refuted`, `Forces.loading_nonneg` |
| C119 | Sum of forces | partial — Proved when the wrenches given in the body frame are given at G; their point of application is ignored otherwise (refuted), which concerns damping and resistance. | `Model/MultiBody`: loop over the bodies, shared frames, sum of the wrenches; force models are parameters | relational proof: two runs that agree on thirteen values and on some frames stay related; power identities; refutations by concrete evaluations | `Multi.sum_of_forces_power_partial`, `Multi.sum_of_forces_order`, `Multi.sum_of_forces_ignores_point`, `Multi.sum_of_forces_power_refuted` |
| C120 | The derivatives are a function of the state | partial — Proved when the force models of a body use only its own frames, those of the bodies before it, and NED; refuted for a force given in the frame of a body that comes after. | `Model/MultiBody`: loop over the bodies, shared frames, sum of the wrenches; force models are parameters | relational proof: two runs that agree on thirteen values and on some frames stay related; power identities; refutations by concrete evaluations | `Multi.evaluation_is_a_function_of_the_state_partial`, `Multi.force_models_get_the_current_state`, `Multi.evaluation_is_a_function_of_the_state_refuted` |
| C121 | Bodies do not act on each other | proved — Force models are functions of the body, frames, commands and date (no memory of their own). | `Model/MultiBody`: loop over the bodies, shared frames, sum of the wrenches; force models are parameters | relational proof: two runs that agree on thirteen values and on some frames stay related; power identities; refutations by concrete evaluations | `Multi.bodies_do_not_interact`, `Multi.same_name_takes_forces` |
| C122 | At a junction of the waterline, the next edge is chosen by geometry only | partial — Proved when no candidate goes straight on, with the exact number that is compared. Refuted: with a candidate straight ahead, the order of the edges decides; and for an edge run backwards, the number is not a function of the direction of the next edge. | `Model/Closing`: angles between edges and choice of the next edge | arguments of complex numbers modulo 2π; invariant of the search of the extreme; refutations by concrete waterlines | `Closing.turn_between_edges`, `Closing.next_edge_connected`, `Closing.next_edge_extreme_partial`, `Closing.next_edge_example`, `Closing.reversed_turn_refuted`, `Closing.next_edge_order_refuted` |
| C123 | The wave spectra of a distant wave model are the ones it sends | partial — True without phases. With phases the claim is false: the counter of the inner loop hides the counter of the outer one, so that a single spectrum with phases is undefined behaviour and several spectra all get the same phases (row j of spectrum j). | Model/Grpc: the exchanges with distant wave and force models; a server is a function from requests to a status and a response | case analysis of the programs; the index of the phase loop by induction; the dates of histories recorded together by induction over the records (Lemmas/HistoryDates) | `Grpc.spectra_received_partial`, `Grpc.spectra_with_phases`, `Grpc.single_spectrum_with_phases_refuted`, `Grpc.second_spectrum_phases_refuted` |
| C124 | A failed gRPC call is reported | partial — Proved for the codes known by grpc++; a status with another number goes through the default label and is accepted (refuted). | Model/Grpc: the exchanges with distant wave and force models; a server is a function from requests to a status and a response | case analysis of the programs; the index of the phase loop by induction; the dates of histories recorded together by induction over the records (Lemmas/HistoryDates) | `Grpc.failed_call_throws_partial`, `Grpc.failed_call_throws_refuted` |
| C125 | A distant force model gets the wave data it asks for | partial — Elevations, velocities and spectra proved when the distant model asks for the current date. False otherwise: elevations are computed at the date of the request and labelled with the current date; dynamic pressures can never be obtained (the z of the request is not copied); a distant wave model gives exactly one velocity. | Model/Grpc: the exchanges with distant wave and force models; a server is a function from requests to a status and a response | case analysis of the programs; the index of the phase loop by induction; the dates of histories recorded together by induction over the records (Lemmas/HistoryDates) | `Grpc.wave_information_partial`, `Grpc.wave_information_content`, `Grpc.wave_information_sent`, `Grpc.no_wave_model`, `Grpc.wave_information_date_refuted`, `Grpc.pressures_never_sent_refuted`, `Grpc.distant_velocities_refuted` |
| C126 | A distant force model gets consistent state histories | proved — For histories recorded together from a new body, any number of records. | Model/Grpc: the exchanges with distant wave and force models; a server is a function from requests to a status and a response | case analysis of the programs; the index of the phase loop by induction; the dates of histories recorded together by induction over the records (Lemmas/HistoryDates) | `Grpc.states_sent`, `Grpc.current_state_sent`, `Grpc.angles_sent`, `Grpc.states_always_sent` |
| C127 | The force of a distant model is its answer | proved | Model/Grpc: the exchanges with distant wave and force models; a server is a function from requests to a status and a response | case analysis of the programs; the index of the phase loop by induction; the dates of histories recorded together by induction over the records (Lemmas/HistoryDates) | `Grpc.distant_force` |
| C128 | The values of a distant wave model are its answers | partial — Proved for elevations and pressures at any number of points and for the velocity at one point; false for the velocities at several points, which are always rejected. | Model/Grpc: the exchanges with distant wave and force models; a server is a function from requests to a status and a response | case analysis of the programs; the index of the phase loop by induction; the dates of histories recorded together by induction over the records (Lemmas/HistoryDates) | `Grpc.distant_elevations_and_pressures`, `Grpc.distant_velocity_partial`, `Grpc.distant_velocities_rejected_refuted`, `Grpc.points_are_checked` |
| C129 | The co-simulation response is valid JSON holding every value | partial — Proved with a reader of JSON texts for finite states and names without quote, backslash or control character; false for NaN states (text nan) and for names with a quote (not escaped). | Model/JsonApi: texts written by the servers and decoding of requests from the JSON tree; Spec/Json: a recursive descent reader of JSON texts | lemmas of the form `text is read as value whatever follows`, by induction on members and elements; equivalences for the decoder; refutations for NaN, quotes and lost exceptions | `JsonApi.response_is_json_partial`, `JsonApi.nan_response_refuted`, `JsonApi.quoted_name_refuted` |
| C130 | A co-simulation response can be sent back as the next request | proved — For finite states (others are not JSON: C129). | Model/JsonApi: texts written by the servers and decoding of requests from the JSON tree; Spec/Json: a recursive descent reader of JSON texts | lemmas of the form `text is read as value whatever follows`, by induction on members and elements; equivalences for the decoder; refutations for NaN, quotes and lost exceptions | `JsonApi.response_can_be_sent_back` |
| C131 | Which JSON requests are accepted, and what they mean | proved — From the JSON tree; find_double of ssc is not in the repository and is taken to reject missing keys and values that are not numbers. | Model/JsonApi: texts written by the servers and decoding of requests from the JSON tree; Spec/Json: a recursive descent reader of JSON texts | lemmas of the form `text is read as value whatever follows`, by induction on members and elements; equivalences for the decoder; refutations for NaN, quotes and lost exceptions | `JsonApi.request_accepted_iff` |
| C132 | The model exchange response is valid JSON holding the thirteen derivatives | partial — Proved for finite derivatives; NaN or infinite derivatives are written nan or inf, as in C129. | Model/JsonApi: texts written by the servers and decoding of requests from the JSON tree; Spec/Json: a recursive descent reader of JSON texts | lemmas of the form `text is read as value whatever follows`, by induction on members and elements; equivalences for the decoder; refutations for NaN, quotes and lost exceptions | `JsonApi.derivatives_response_partial` |
| C133 | Every websocket request gets one readable answer | partial — One answer proved except for mesh and websocket exceptions, for which no answer is sent (refuted); the error is readable when its text has no quote, backslash or control character but line ends (refuted otherwise). | Model/JsonApi: texts written by the servers and decoding of requests from the JSON tree; Spec/Json: a recursive descent reader of JSON texts | lemmas of the form `text is read as value whatever follows`, by induction on members and elements; equivalences for the decoder; refutations for NaN, quotes and lost exceptions | `JsonApi.one_answer_partial`, `JsonApi.error_is_json_partial`, `JsonApi.no_answer_refuted`, `JsonApi.quoted_error_refuted` |
| C134 | Wave models superpose | proved — Airy models with one phase per component (what flatten produces). | Model/SeaState: SurfaceElevationFromWaves, DefaultSurfaceElevation, SurfaceElevationInterface (update, checks, evaluate_rao); frames given by ssc are transforms | loops over models and points computed by induction; sums of lists; memory of the last call threaded through the bodies | `Sea.pressure_superposition`, `Sea.velocity_superposition`, `Sea.order_of_models`, `Sea.no_model_is_still_water`, `Sea.still_water`, `Sea.sizes_refused`, `Waves.wave_height_sum` |
| C135 | Each hull is cut by the waves at its own position | partial — True for hulls with at least one node; a body whose mesh is empty is given the elevations of the previous body (empty_mesh_gets_the_previous_body). | Model/SeaState: SurfaceElevationFromWaves, DefaultSurfaceElevation, SurfaceElevationInterface (update, checks, evaluate_rao); frames given by ssc are transforms | loops over models and points computed by induction; sums of lists; memory of the last call threaded through the bodies | `Sea.relative_wave_height`, `Sea.bodies_told_their_own_waves_partial`, `Sea.empty_mesh_gets_the_previous_body`, `Sea.unknown_frame` |
| C136 | Froude-Krylov force | partial — The last clause holds for triangular facets; it is false for quadrilateral facets (those created on the waterline): the mean of the elevations of the vertices is compared with the depth of the centre of gravity. | Model/SeaState: get_dF of FroudeKrylovForceModel with the loop of SurfaceForceModel | wrench as a sum over facets by induction; bounds by the pressure bound of C52; counterexample with a quadrilateral | `Sea.froude_krylov`, `Sea.froude_krylov_still_water`, `Sea.froude_krylov_emerged`, `Sea.froude_krylov_superposition`, `Sea.froude_krylov_bound`, `Sea.immersed_triangle_feels_the_waves_partial`, `Sea.immersed_quadrilateral_without_pressure` |
| C137 | Response to several spectra | proved — The table of phases is assumed to have the size of the table of modules (the code checks the modules only). | Model/SeaState: SurfaceElevationFromWaves, DefaultSurfaceElevation, SurfaceElevationInterface (update, checks, evaluate_rao); frames given by ssc are transforms | loops over models and points computed by induction; sums of lists; memory of the last call threaded through the bodies | `Sea.rao_superposition`, `Sea.rao_wrong_sizes` |
| C138 | Rotation convention | proved — The documentation also mentions [z,y',x''] and [psi,phi',theta'']: both are refused. With no body at all the convention is not used. | Model/Setup: search_and_replace, operator>>(YamlRotation), check_rotations, angle2matrix on lists of characters | inversion of the replacements (a replacement by a character absent of the result does nothing), equivalence with the list of accepted conventions | `Setup.rotation_convention`, `Setup.refused_convention`, `Setup.initial_states` |
| C139 | Initial states | proved — Reals instead of floating point numbers. | Model/Setup: get_initial_states, Eigen's Quaternion(Matrix3), BodyStates::convert | the 4x4 matrix of products of components read in a rotation matrix has rank one (cofactors); loop over bodies by induction on the prefix already written | `Setup.initial_states` |
| C140 | Quaternion of a rotation | proved — Eigen's construction of the quaternion (external) is modelled branch by branch. | Model/Setup: get_initial_states, Eigen's Quaternion(Matrix3), BodyStates::convert | the 4x4 matrix of products of components read in a rotation matrix has rank one (cofactors); loop over bodies by induction on the prefix already written | `Setup.quaternion_of_rotation`, `Setup.euler_to_quaternion`, `Setup.rotationZYX_isRotation` |
| C141 | Exit status | partial — Refuted: a simulation that fails ends with status 0, and a websocket failure is not displayed. Proved: a status different from 0 means that nothing was started and a message was displayed; a completed simulation ends with 0. | Model/Cli: main of the three executables, invalid, solve; the simulation is an arbitrary function of the arguments that may fail | case analysis of the command lines; refutations for every failing simulation | `Cli.xdyn_exit_partial`, `Cli.failed_simulation_exits_with_success`, `Cli.websocket_failure_is_silent`, `Cli.cs_refused_exits_with_success`, `Cli.nothing_asked` |
| C142 | Checks of the command line | partial — Full for xdyn-for-cs. Refuted for xdyn (--help with a YAML file runs without the checks) and xdyn-for-me (a command line that boost refuses starts the server). | Model/Cli: main of the three executables, invalid, solve; the simulation is an arbitrary function of the arguments that may fail | case analysis of the command lines; refutations for every failing simulation | `Cli.xdyn_checks_partial`, `Cli.cs_checks`, `Cli.me_checks_partial`, `Cli.xdyn_help_starts_simulation`, `Cli.me_refused_starts_server`, `Cli.nothing_asked`, `Cli.help_alone` |
| C143 | Choice of the solver | partial — Refuted for xdyn: an unknown name silently means euler. | Model/Cli: main of the three executables, invalid, solve; the simulation is an arbitrary function of the arguments that may fail | case analysis of the command lines; refutations for every failing simulation | `Cli.named_solver`, `Cli.server_unknown_solver`, `Cli.xdyn_unknown_solver_is_euler` |
| C144 | Outputs of the YAML file | partial — Proved for well written elements. Refuted for the others: they are dropped, with all those after them when the format is missing. | Model/Cli: parse_output with its partial fills, ListOfObservers, build_observers_description, get_environment | induction on the list of elements; inversion of the error monad | `Cli.yaml_outputs_partial`, `Cli.bad_output_drops_the_rest`, `Cli.missing_data_observes_nothing`, `Cli.unknown_format_dropped` |
| C145 | Wave output option | partial — Refuted for JSON outputs: -o a.json -w w.h5 does not write w.h5. | Model/Cli: parse_output with its partial fills, ListOfObservers, build_observers_description, get_environment | induction on the list of elements; inversion of the error monad | `Cli.cli_keeps_yaml_outputs`, `Cli.wave_file_partial`, `Cli.wave_name_not_used`, `Cli.wave_file_refuted` |
| C146 | Environment constants | partial — Refuted for negative constants: the check is made on the default values, before those of the file are stored. | Model/Cli: parse_output with its partial fills, ListOfObservers, build_observers_description, get_environment | induction on the list of elements; inversion of the error monad | `Cli.constants_kept_partial`, `Cli.negative_constants_accepted` |
| C147 | The sections on waves are read as written, or refused | proved — Documents are trees of maps, lists and texts; the conversion of texts to numbers and of units to factors is an arbitrary partial function. | Spec/Yaml, Spec/InputFormat (the documented format, as relations) and Model/Input: every operator>> and parse function, over trees of maps, lists and texts with arbitrary conversions | equivalence 'parser returns r iff the document has the format and describes r', compositionally from iff-lemmas of the combinators; absence of undefined behaviour by a syntactic induction; refutations on concrete documents | `Input.parseWaves_iff`, `Input.parseDiscretization_iff`, `Input.parseSpectra_iff`, `Input.parseWaveOutput_iff`, `Input.parseDiracSpectrum_iff`, `Input.parseJonswap_iff`, `Input.parseHsTp_iff`, `Input.parseCos2s_iff`, `Input.parseDefaultWaveModel_iff`, `Input.waves_never_ub` |
| C148 | The sea that is simulated is the one of the file | partial — Everything but the energy fraction is proved; the energy fraction of the file is refuted: two files that differ by it only give the same sea. | Model/SeaBuild: builders.cpp over the real numbers, root search, pow and the random generator being arbitrary functions | composition of the parser equivalences of C147 with the sums of C51 and the spectra of C116; refutation for every two files that differ by the energy fraction | `Input.sea_of_file`, `Input.regular_wave`, `Input.irregular_wave`, `Input.energy_fraction_is_ignored` |
| C149 | The input file is read as written, or refused | proved | Spec/Yaml, Spec/InputFormat (the documented format, as relations) and Model/Input: every operator>> and parse function, over trees of maps, lists and texts with arbitrary conversions | equivalence 'parser returns r iff the document has the format and describes r', compositionally from iff-lemmas of the combinators; absence of undefined behaviour by a syntactic induction; refutations on concrete documents | `Input.parseSim_iff`, `Input.parseBody_iff`, `Input.parsePosition_iff`, `Input.parseDynamics_iff`, `Input.parseMatrix6_iff`, `Input.parseBlockedDof_iff`, `Input.parseConstants_iff`, `Input.parseModel_iff`, `Input.sim_never_ub` |
| C150 | The parameters of the force models are read as written, or refused | proved — The sense of rotation of propellers is C152, the damping matrices C151. | Spec/Yaml, Spec/InputFormat (the documented format, as relations) and Model/Input: every operator>> and parse function, over trees of maps, lists and texts with arbitrary conversions | equivalence 'parser returns r iff the document has the format and describes r', compositionally from iff-lemmas of the combinators; absence of undefined behaviour by a syntactic induction; refutations on concrete documents | `Input.parsePropeller_iff`, `Input.parseWageningen_iff`, `Input.parseKtKq_iff`, `Input.parseRudder_iff`, `Input.parseConstantForce_iff`, `Input.parseResistance_iff`, `Input.parseStationKeeping_iff`, `Input.parseHeadingKeeping_iff`, `Input.parseRadiation_iff`, `Input.parseDiffraction_iff`, `Input.parseLinearHydrostatic_iff`, `Input.parseGrpcForce_iff`, `Input.parseGM_iff`, `Input.forces_never_ub` |
| C151 | A 6x6 matrix that is not one is refused | partial — True for six rows of six numbers. Refuted otherwise: a short row or the name of a file is undefined behaviour, what follows the sixth number of a row is ignored. | Spec/Yaml, Spec/InputFormat (the documented format, as relations) and Model/Input: every operator>> and parse function, over trees of maps, lists and texts with arbitrary conversions | equivalence 'parser returns r iff the document has the format and describes r', compositionally from iff-lemmas of the combinators; absence of undefined behaviour by a syntactic induction; refutations on concrete documents | `Input.damping_matrix_partial`, `Input.parseDamping_iff`, `Input.damping_ub_iff`, `Input.short_row_is_ub`, `Input.hdb_damping_is_ub`, `Input.long_row_accepted` |
| C152 | The sense of rotation of a propeller is the one of the file | partial — The documented values are understood; refuted for the others, which are accepted and mean anticlockwise. | Spec/Yaml, Spec/InputFormat (the documented format, as relations) and Model/Input: every operator>> and parse function, over trees of maps, lists and texts with arbitrary conversions | equivalence 'parser returns r iff the document has the format and describes r', compositionally from iff-lemmas of the combinators; absence of undefined behaviour by a syntactic induction; refutations on concrete documents | `Input.documented_rotations_partial`, `Input.misspelt_rotation_accepted` |
| C153 | A malformed output section is refused | partial — Refuted for malformed sections: they are not reported and part of them is used. | Spec/Yaml, Spec/InputFormat (the documented format, as relations) and Model/Input: every operator>> and parse function, over trees of maps, lists and texts with arbitrary conversions | equivalence 'parser returns r iff the document has the format and describes r', compositionally from iff-lemmas of the combinators; absence of undefined behaviour by a syntactic induction; refutations on concrete documents | `Input.swallowed_output_partial`, `Input.swallowed_output_absent`, `Input.swallowed_output_never_fails`, `Input.malformed_output_not_reported` |
| C154 | The keys of a maneuvering model are its functions | proved | Spec/Yaml, Spec/InputFormat (the documented format, as relations) and Model/Input: every operator>> and parse function, over trees of maps, lists and texts with arbitrary conversions | equivalence 'parser returns r iff the document has the format and describes r', compositionally from iff-lemmas of the combinators; absence of undefined behaviour by a syntactic induction; refutations on concrete documents | `Input.parseManeuvering_iff` |
| C155 | The seed is the one of the file | proved | Spec/Yaml, Spec/InputFormat (the documented format, as relations) and Model/Input: every operator>> and parse function, over trees of maps, lists and texts with arbitrary conversions | equivalence 'parser returns r iff the document has the format and describes r', compositionally from iff-lemmas of the combinators; absence of undefined behaviour by a syntactic induction; refutations on concrete documents | `Input.parseSeed_iff` |
| C156 | The commands of the file are those that are applied | proved | Spec/Yaml, Spec/InputFormat (the documented format, as relations) and Model/Input: every operator>> and parse function, over trees of maps, lists and texts with arbitrary conversions | equivalence 'parser returns r iff the document has the format and describes r', compositionally from iff-lemmas of the combinators; absence of undefined behaviour by a syntactic induction; refutations on concrete documents | `Input.parseCommandsNode_iff` |
| C157 | HDB files are read as written | proved — The reader of numbers (Boost.Spirit double_) is any function that reads the numbers followed by a blank, an end of line or the end of the text. | Spec/HdbText (the format, as relations between content and text) and Model/HdbText: the Spirit grammar as a parsing expression grammar with its skipper, over an arbitrary lexer of numbers | per-rule lemmas 'reads what is written whatever follows' and 'fails on the other kinds', repetitions by induction on the elements; refutations: general for any trailing text, and concrete files | `Hdb.hdb_text`, `Hdb.hdb_unambiguous`, `Hdb.demo_isFile` |
| C158 | A malformed HDB file is refused | partial — True for a first bracket that is not closed. Refuted: the result of the parser is not looked at, whatever follows the part that has the format is silently ignored. | Spec/HdbText (the format, as relations between content and text) and Model/HdbText: the Spirit grammar as a parsing expression grammar with its skipper, over an arbitrary lexer of numbers | per-rule lemmas 'reads what is written whatever follows' and 'fails on the other kinds', repetitions by induction on the elements; refutations: general for any trailing text, and concrete files | `Hdb.open_bracket_refused_partial`, `Hdb.hdb_rest_ignored`, `Hdb.empty_line_hides_the_rest`, `Hdb.two_empty_lines_hide_the_rest`, `Hdb.last_value_lost`, `Hdb.bad_value_truncates`, `Hdb.short_name_hides_the_rest` |
| C159 | The force of a maneuvering model is the value of its expressions | proved — The evaluation ends with F iff every component of F is the value of its name in Spec/ManeuveringForce. Names of keys, commands and constants are assumed distinct and the used texts well written (met by demo_hypotheses). SSC's data source is modelled as signals set and modules evaluated on demand. | Spec/ManeuveringForce (value of a name as an inductive relation) and Model/ManeuveringForce: constructor and get_force with SSC's data source as set signals and modules evaluated on demand | soundness by induction on the nesting bound, completeness by induction on the derivation, on top of the compiler theorems of C59 | `Maneuvering.maneuvering_force`, `Maneuvering.missing_component`, `Maneuvering.means_unique`, `Maneuvering.signal_iff`, `Maneuvering.circular`, `Maneuvering.demo_hypotheses` |
| C160 | Every number that is written is found under its own name | partial — Full claim false in the code: the centre of buoyancy is written as Bx, By, Bz whatever the body (the last body wins), a controlled force model with the name of its body overwrites its wrench in the body frame, and an extra observation of a distant model named like a state is lost. Proved: when these coincidences are excluded (Distinct), every number due is kept under its name. | Model/Outputs: every write of Sim::output with its name, what the observer keeps is the last value of a name | names are cut at parentheses and commas, injectivity of the naming, uniqueness over nested lists; refutations by concrete simulations | `Outputs.outputs_partial`, `Outputs.same_name`, `Outputs.mem_outputs`, `Outputs.buoyancy_overwritten`, `Outputs.frame_overwritten`, `Outputs.extra_overwritten` |
| C161 | The wrench of a controlled force written in the NED frame is the one applied to the body | partial — False in the code: Sim::output passes the position of the body in the NED frame where feed expects the application point, so that the torque is wrong (exact error given). Proved: feed itself writes the equivalent wrench when it is given the right point. | Model/Outputs: feedNed | polynomial identity of powers; exact error of the torque; refutation by a concrete body | `Outputs.ned_wrench_power_partial`, `Outputs.ned_wrench_error`, `Outputs.ned_wrench_refuted` |
| C162 | The bodies of the simulation are those of the file | partial — False in the code when two bodies have the same name, which is accepted: the first one silently gets the mesh and the force models of the second. Proved in full for bodies with different names, with success whenever every part of the input is valid. | Spec/Build (sections of a file as inductive relations threading the outside world) and Model/Build: SimulatorBuilder::build and the constructor of Sim, with arbitrary constructors of force models | equivalence of the loops with the relations by induction, maps by key with different names, C66 for the history; refutations by concrete files and, for C163, for every file with a distant model | `Build.built_partial`, `Build.build_succeeds`, `Build.same_name_refuted` |
| C163 | A distant force model is given its parameters once | partial — False in the code: the controlled force models are constructed twice, so that everything is sent twice; and the length of the history is taken from the first ones, which are thrown away. Proved: exactly what is sent, and that it is never what the file asks for as soon as there is a distant model. | Spec/Build (sections of a file as inductive relations threading the outside world) and Model/Build: SimulatorBuilder::build and the constructor of Sim, with arbitrary constructors of force models | equivalence of the loops with the relations by induction, maps by key with different names, C66 for the history; refutations by concrete files and, for C163, for every file with a distant model | `Build.parameters_sent_twice_partial`, `Build.parameters_sent_refuted`, `Build.history_of_first_models` |
| C164 | A mesh is accepted if and only if its facets have the same orientation | partial — False in the code both ways: a facet turned over is not noticed in a convex mesh of at least twelve facets, and a mesh of two convex hulls with a single orientation is refused. Proved: for every convex mesh with any subset of facets turned over, the exact verdict, and the right orientation when none is turned. | Model/Orientation: oriented_clockwise and barycenter over the real numbers | the barycentre of the points is strictly inside every facet of a convex mesh (sum of the heights), invariance under permutation, count by induction over any list of turned facets; refutations: general (twelve facets) and two tetrahedra | `Hull.orientation_partial`, `Hull.convex_accepted`, `Hull.turned_facet_accepted`, `Hull.two_hulls_refused` |
| C165 | Diffraction force in a sea | proved — The interpolators of SSC are arbitrary functions of the period and of the incidence. | Model/Diffraction: constructor and evaluate of DiffractionForceModel on top of Model/SeaState (evaluate_rao) and Model/Hdb (interpolation of the RAO) | loops as lists of spectra, C137 for the sum, C87 for the transport; symmetry wave by wave from C56, incidences 0 and pi apart | `Sea.makeDiffraction_iff`, `Sea.diffraction_force`, `Sea.diffraction_still_water` |
| C166 | Port and starboard symmetry of the diffraction force | proved | Model/Diffraction: constructor and evaluate of DiffractionForceModel on top of Model/SeaState (evaluate_rao) and Model/Hdb (interpolation of the RAO) | loops as lists of spectra, C137 for the sum, C87 for the transport; symmetry wave by wave from C56, incidences 0 and pi apart | `Sea.diffraction_symmetric`, `Sea.module_flip`, `Sea.phase_flip` |
| C167 | Buoyancy of the model 'hydrostatic' | partial — False for very flat hulls: when all the immersed normals agree with the first one within 1e-6 the volume is taken as zero (a pyramid displacing more than five million cubic metres has no buoyancy). Proved otherwise. | Model/Buoyancy: MeshIntersector::center_of_mass of a range with its closing facets and flag, HydrostaticForceModel | sum over the fans of flat polygons (volumes of one sign), independence of the origin on closed surfaces (C44, C77), power of the wrench; refutation by a pyramid with rational normals | `Closing.buoyancy_partial`, `Closing.buoyancy_dry`, `Closing.buoyancy_refuted` |
| C168 | TSV output | partial — False without any numeric variable (std::length_error, characterised exactly by tsv_fails_iff) and for names with blanks; proved for names without blanks. | Model/Tsv: TsvObserver on top of Model/Observer, the length of the title line as state | run of any observer as a list of actions (C33), text and length by induction, words of a line by an independent splitter; refutations: empty list, blank in a name | `Obs.tsv_lines_partial`, `Obs.tsv_fails_iff`, `Obs.tsv_empty_refuted`, `Obs.tsv_blank_refuted` |
| C169 | HDB file, from the text to the simulation | proved — The interpolation (library) is asked to accept the periods and to go through the points. list_text: every table can be written in a file (hypotheses are met). | Model/HdbFile: constructor and accessors of HDBParser on top of Model/HdbText and Model/Hdb; spline of the library as a parameter | C157 for the text, invariant of the loops over sections (lines read so far agree with the table), totality of the loops by induction; texts exist for every table (list_text) | `Hdb.database_of_text`, `Hdb.matrices_of_file`, `Hdb.body_inertia_of_text`, `Hdb.list_text` |
| C170 | HDB files without RAO | proved | Model/HdbFile: constructor and accessors of HDBParser on top of Model/HdbText and Model/Hdb; spline of the library as a parameter | C157 for the text, invariant of the loops over sections (lines read so far agree with the table), totality of the loops by induction; texts exist for every table (list_text) | `Hdb.rao_missing`, `Hdb.database_rao`, `Hdb.rao_total` |
| C171 | Bollard pull of the B series | proved — Pitch ratios outside of 0.5 to 1.4 are accepted by the code (C58) but not covered. | Model/Wageningen: the five arrays of Kt and of Kq as in the source, get_force with the commands | polynomial inequalities on a box for each number of blades: identity with non-negative Bernstein coefficients checked by ring (Lemmas/Wageningen, generated); Simpson's rule, exact for cubics, for the decrease; refutation by evaluation | `Forces.bollard_pull`, `Forces.kt_rest`, `Forces.kq_rest`, `Forces.force_turning` |
| C172 | Thrust decreases with speed | partial — Proved for two to four blades; refuted for five to seven (pitch ratio 1.4, area ratio 0.3, near zero speed). | Model/Wageningen: the five arrays of Kt and of Kq as in the source, get_force with the commands | polynomial inequalities on a box for each number of blades: identity with non-negative Bernstein coefficients checked by ring (Lemmas/Wageningen, generated); Simpson's rule, exact for cubics, for the decrease; refutation by evaluation | `Forces.thrust_decreases_partial`, `Forces.thrust_increases_refuted` |
| C173 | The documented solvers run to the end | partial — True of euler and rk4. False of rkck: the stages of Cash and Karp are evaluated at 0, 1/5, 3/10, 3/5, 1 and 7/8 of the step; the last one is before the one recorded just before it and History::record throws, so that every simulation with that solver fails in its first step (rkck_always_fails). The methods themselves (SSC, boost odeint) are external and modelled by their documented coefficients. | `Model/Integrators`: explicit Runge-Kutta methods as programs that evaluate the simulation (`Model/Sim`), the three tableaux | invariant on the histories (nothing recorded after the current date) through stages and steps; `Cash-Karp` refuted by following its six evaluations | `Sim.solvers_complete_partial`, `Sim.rkck_always_fails`, `Sim.ballInAir_sound`, `Sim.evaluation_is_dxdt` |
| C174 | A falling body follows the exact motion | proved — End to end: force model, sum of forces, derivatives, solver, histories, normalisation, observations. Over the reals. | `Model/Integrators` on `Model/MultiBody`, `Model/Sim`, `Model/Body`: one body from its force models to its observations | induction on stages (any consistent tableau), then on steps; the link with `Sim::dx_dt` of several bodies is `evaluation_is_dxdt` | `Sim.falling_body_rk4`, `Sim.falling_body_euler`, `Sim.falling_body_energy`, `Sim.fall_run`, `Sim.ballInAir_free`, `Sim.evaluation_is_dxdt` |
| C175 | A body at rest in equilibrium stays at rest | proved — Any force models; none of the states is blocked. | `Model/Integrators` on `Model/MultiBody`, `Model/Sim`, `Model/Body`: one body from its force models to its observations | induction on stages (any consistent tableau), then on steps; the link with `Sim::dx_dt` of several bodies is `evaluation_is_dxdt` | `Sim.body_at_rest_stays`, `Sim.rk4_forward`, `Sim.euler_forward` |
| C176 | A floating body in equilibrium does not move | proved — Composition of C167 (buoyancy), gravity and C175. What the intersection of the mesh with the surface gives is a hypothesis (facets that enclose the displaced volume; see C109-C112), and the normals of the immersed facets must not all agree within 1e-6 (see C167). | `Model/Floating`: the force model `hydrostatic` as a force model of a simulation | `buoyancy_partial` (C167) gives force and moment, `body_at_rest_stays` (C175) the motion | `Sim.floating_body_stays`, `Sim.floats_buoyancy`, `Sim.pyramid_floats` |
| C177 | A body whose velocities are all prescribed moves with these velocities | partial — True when the initial velocity is the prescribed one. Otherwise the claim is false of the code: the positions are integrated with the unforced velocities, so that with the executable xdyn the body moves with its initial velocity for ever while the prescribed velocity is displayed (captive_body_xdyn, and captive_body_drifts: the difference has no bound); in the co-simulation this happens in the first step only (captive_body_cosim). drivers_agree: without blocked states both solvers are the same, so C173-C176 hold for both. | `Model/Integrators`: both solver loops (`sscSystem`, `simSystem`) on a body with six blocked states (`Model/BlockedDof`) | induction on stages and steps: the blocked derivatives vanish, the velocities of the state are unchanged by a step; exact positions for both loops, refutation by the distance to the straight line | `Sim.captive_body_partial`, `Sim.captive_body_xdyn`, `Sim.captive_body_cosim`, `Sim.captive_body_drifts`, `Sim.drivers_agree` |
| C178 | Independent bodies move in one simulation as each of them does alone | proved — One evaluation of all the bodies is the juxtaposition of the evaluations of each (frames written by the others do not matter), the normalisation and the Runge-Kutta combinations act body by body, lockstep induction over the stages and over the loop of the solver; blocked states are written at the place of the body (forceStates_emb). falling_fleet composes with C174; an example has a falling body and a towed one. | `Model/Fleet`: a simulation of several bodies driven by a solver (numbering of the bodies, `Sim::operator()`, forced states, observed states) | one evaluation is the juxtaposition of those of the bodies (`dxdt_fleet`, induction on the bodies), then lockstep induction on stages and on the loop; composed with C174 for falling bodies | `Sim.bodies_move_as_alone`, `Sim.falling_fleet` |
| C179 | A simulation is the solver applied to the equations of motion | proved — Memoryless (Props/RungeKutta) says that the derivatives are a function of states and date when the histories keep no past; mechanical_memoryless proves it for the five force models, with the equations of motion of Spec/Push; Spec/RungeKutta is the method without histories nor exceptions; simulation_is_runge_kutta is the loop of solver.hpp and executable_is_runge_kutta the one of the executable xdyn | Model/Mechanical (linear and quadratic damping, resistance curve and constant force as force models of a simulation), on Model/Integrators; specifications in Spec/RungeKutta (the method on a function of states and date) and Spec/Push (forces as functions of the state, equations of motion) | refinement: induction on the stages of the method and on the steps, with the invariant that the histories keep no past and their last value is the current state; then affine embedding of the one-dimensional problem, closed forms by induction, bounds on the exponential | `Sim.simulation_is_runge_kutta`, `Sim.executable_is_runge_kutta`, `Sim.mechanical_memoryless`, `Sim.euler_textbook`, `Sim.rk4_textbook` |
| C180 | A body pushed straight ahead stays on its course | proved — straight_ahead for every method whose stages never go back in time; axial_thrust, axial_linear, axial_quadratic, axial_resistance, axial_weight give the force models that meet its hypothesis | Model/Mechanical (linear and quadratic damping, resistance curve and constant force as force models of a simulation), on Model/Integrators; specifications in Spec/RungeKutta (the method on a function of states and date) and Spec/Push (forces as functions of the state, equations of motion) | refinement: induction on the stages of the method and on the steps, with the invariant that the histories keep no past and their last value is the current state; then affine embedding of the one-dimensional problem, closed forms by induction, bounds on the exponential | `Sim.straight_ahead`, `Sim.steady_speed_kept`, `Sim.euler_reaches_steady_speed`, `Sim.axial_sum` |
| C181 | Thrust against damping: accuracy and stability of the solvers | proved — real arithmetic; exact_solution shows that exactSpeed and exactDistance solve the equation of motion | Model/Mechanical (linear and quadratic damping, resistance curve and constant force as force models of a simulation), on Model/Integrators; specifications in Spec/RungeKutta (the method on a function of states and date) and Spec/Push (forces as functions of the state, equations of motion) | refinement: induction on the stages of the method and on the steps, with the invariant that the histories keep no past and their last value is the current state; then affine embedding of the one-dimensional problem, closed forms by induction, bounds on the exponential | `Sim.thrust_against_damping_rk4`, `Sim.thrust_against_damping_euler`, `Sim.exact_solution`, `Sim.euler_converges`, `Sim.euler_diverges`, `Sim.rk4_converges` |
| C182 | The controllers and the bodies that do not turn | proved — Model/Control has the two controllers as force models of a simulation, Spec/Control their forces as functions of the state; the Euler angles of a matrix (SSC) are a parameter psiOf; commands constant in time (in the code too, except with co-simulation where they change between two calls) | Model/Control (the controllers as controlled force models of a simulation) on Model/Integrators; specifications in Spec/Control | C179 with the controllers; relation between the 13 states and the 6 of a body that does not turn, kept by stages and steps (rk_related); modes of an affine motion by induction on the steps; second-order oscillator as one complex mode, norm of the factors of euler and rk4, error by the exponential; roots of lambda^2 + 2 ksi w lambda + w^2 e^{i psi} for the other headings | `Sim.controlled_memoryless`, `Sim.translates`, `Sim.mode_euler`, `Sim.mode_rk4`, `Sim.missing_command`, `Sim.missing_command_stops` |
| C183 | Station keeping at heading 0: period, damping and stability of the closed loop | proved — exact_oscillation shows that exactError and exactRate solve the equation of the damped oscillator | Model/Control (the controllers as controlled force models of a simulation) on Model/Integrators; specifications in Spec/Control | C179 with the controllers; relation between the 13 states and the 6 of a body that does not turn, kept by stages and steps (rk_related); modes of an affine motion by induction on the steps; second-order oscillator as one complex mode, norm of the factors of euler and rk4, error by the exponential; roots of lambda^2 + 2 ksi w lambda + w^2 e^{i psi} for the other headings | `Sim.station_keeping_rk4`, `Sim.exact_oscillation`, `Sim.station_keeping_energy`, `Sim.station_keeping_converges`, `Sim.station_keeping_euler_diverges` |
| C184 | The station-keeping controller brings the ship to its target whatever the commanded heading | partial — refuted: the controller multiplies a position error in NED by gains and applies the result along the axes of the body, without turning it by psi. station_keeping_loses: with the same gains in surge and sway the body goes away without bound when 4 ksi^2 cos(psi) < sin(psi)^2 (east, south and west for every damping, and beyond 90 degrees from the north), for every time step with euler and every small one with rk4; station_keeping_holds_partial: it comes to its target when 4 ksi^2 cos(psi) > sin(psi)^2 (ksi = 1 at psi = 0 left out) | Model/Control (the controllers as controlled force models of a simulation) on Model/Integrators; specifications in Spec/Control | C179 with the controllers; relation between the 13 states and the 6 of a body that does not turn, kept by stages and steps (rk_related); modes of an affine motion by induction on the steps; second-order oscillator as one complex mode, norm of the factors of euler and rk4, error by the exponential; roots of lambda^2 + 2 ksi w lambda + w^2 e^{i psi} for the other headings | `Sim.station_keeping_holds_partial`, `Sim.station_keeping_loses` |
| C185 | A simulation cut into co-simulation requests | partial — Proved: every request of the sequence is answered and the answers are exactly the steps of the method, restarted at each request from the state that was sent (with its quaternion normalised); so nothing changes when normalisation changes nothing, in particular for bodies that do not turn. Refuted for bodies that turn: quaternions are normalised in the answers but not between the steps of a simulation, so that the position depends on where the simulation is cut (3.125 m or 2.72 m in the example). | Model/Server (inputs of a request, `SimStepper::step`, `play_one_step`) with Model/Integrators; a client that chains requests in Spec/Chain | each request by C179 from the states received; induction on the requests (`chained_requests`), additivity of the runs of the method (`rkRun_add`); counterexample computed from the proved law for a ball that turns | `Server.chained_requests`, `Server.cut_simulation`, `Server.translation_cut`, `Server.body_requests`, `Server.cut_matters` |
| C186 | A body that spins | proved — Real arithmetic. The norm of the quaternion that is shown is 1, unless the comparison of the norm with 1 accepts it as it is; in this case the norm is that of the integrated quaternion, given exactly. | Model/Integrators, Model/Body, normalisation of Model/Sim; rotations in Spec/Spin (Rodrigues' formula) | the quaternions reached are the initial one times those of the powers of a complex number, the stability function of the method at i om dt / 2; polar form of this number (arctan for euler, bound of the exponential series for rk4) | `Sim.spin_euler`, `Sim.euler_turn`, `Sim.spin_rk4`, `Sim.turned_matrix` |
| C187 | A body on linear hydrostatics heaves like a damped spring | proved — Concrete case: a barge of 1000 kg with K = 10 kN/m (`barge_heaves`). The Euler angles (SSC) and the wave model are parameters. | Model/LinearHydrostatics (the force model on the histories and the frames of the simulation, over the law of Model/Forces), Model/MultiBody, Model/Sim | `glides`: any body whose forces make it accelerate without turning, time-dependent accelerations included, is a Runge-Kutta solution of a six-state system (`Memoryless` + `rk_related`). Heave is then a `Mode` of that system, with the oscillator lemmas of C183. | `Sim.glides`, `Sim.linear_hydrostatics_value`, `Sim.heave_motion`, `Sim.heave_rk4`, `Sim.heave_energy`, `Sim.heave_settles`, `Sim.heave_euler_diverges` |
| C188 | Work and energy | proved — Coriolis and centripetal forces are computed by SSC: the hypothesis on them (inertialForces, Spec/Energy) is what this function is specified to compute; the equations are those of C179 and C182 (newton, total), proved there to be the ones that the simulation integrates | Spec/Push, Spec/Control (equations of motion that C179 and C182 prove to be the ones integrated); energy, momentum, power and motions in Spec/Energy | derivatives along any curve that satisfies the equations (symmetry of the inertia, vector identities, quaternion kinematics of C72); exact expansion of a step of euler, carried to the observations by C179 | `Sim.kinetic_energy_rate`, `Sim.mechanical_energy_rate`, `Sim.mechanical_energy_decreases`, `Sim.mechanical_energy_conserved`, `Sim.linear_damping_push_dissipates`, `Sim.resistance_push_dissipates`, `Sim.euler_step_energy`, `Sim.euler_simulation_energy`, `Sim.euler_free_body_gains_energy` |
| C189 | Momentum | proved — same hypothesis on Coriolis and centripetal forces as C188 | Spec/Push, Spec/Control (equations of motion that C179 and C182 prove to be the ones integrated); energy, momentum, power and motions in Spec/Energy | derivatives along any curve that satisfies the equations (symmetry of the inertia, vector identities, quaternion kinematics of C72); exact expansion of a step of euler, carried to the observations by C179 | `Sim.momentum_balance`, `Sim.momentum_added_mass`, `Sim.angular_momentum_balance`, `Sim.free_body_momentum`, `Sim.rotating_axes`, `Sim.motion_unit` |
| C190 | A body that lies on a plane sea | partial — The value in waves and the mean depth are proved. The last part is refuted: with the points laid out as in the documentation the pitch of the sea is taken with the wrong sign, so that the body is pushed away from the sea's slope whatever the distances between the points; the roll has the right sign but the right value only for some distances (see C96). | Model/LinearHydrostatics, Model/Forces; plane seas and the layout of the points stated in Props/PlaneSea | value of the model computed from `Current` histories; rotation matrices of roll and pitch by the double-angle formulas; counterexample for every slope and every distance | `Sim.linear_hydrostatics_in_waves`, `Sim.plane_sea_mean`, `Sim.roll_on_plane_sea`, `Sim.pitch_on_plane_sea_refuted` |
| C191 | The gz program | partial — Refuted for the exit status, which is 0 whatever happens. The lever is the one without trim (see C70), and the interval in which the depth is searched must contain the equilibrium (see C100). | Model/GzTool (main of gz, GZ::Curve) over Model/GZ | angles by C68 in radians, converted; equilibrium of each line by C69, the fuel of the searches being the maximum over the lines | `GzTool.gz_table`, `GzTool.gz_refused`, `GzTool.gz_dense_body`, `GzTool.gz_incomplete_table`, `GzTool.gz_exit_refuted` |
| C192 | What the HDF5 output holds | partial — Proved when no path of a requested dataset goes through another one. Refuted otherwise: two requested variables at the same address make the run fail, which is the case of GM(body) and GZ(body) written by the GM force model (both at efforts/body/name/GM), and of a variable requested twice, which the CSV output accepts. The HDF5 library is modelled as a tree of groups and datasets. | Model/Hdf5 (Hdf5Observer, Hdf5WaveObserver, h5_tools; the HDF5 library is a tree of groups and datasets) | invariant on the tree (datasets written so far, groups on the way to them) kept by each initializer and serializer, then the run of an observer (C33) | `Hdf5.hdf5_file`, `Hdf5.path_eq`, `Hdf5.hdf5_same_address_refuted`, `Hdf5.hdf5_gm_gz_refuted` |
| C193 | The waves of an HDF5 output are those of the simulation | proved — The columns are read with readColumn (a specification of reading a one-column dataset); the HDF5 library itself and the representation of numbers in the file are external. | Model/Hdf5Inputs (Hdf5WaveSpectrumObserver, stl_io_hdf5, inputs written by xdyn.cpp) on Model/Hdf5 | list of the datasets to create, pairwise apart, written one after the other (writes_hold); elements read back by the layout in memory; sum of waves by C51, mesh by C43 | `Hdf5.spectra_read_back`, `Hdf5.twoDigits_injective` |
| C194 | The inputs stored in an HDF5 output can be read back | proved — hull_read_back goes through the construction of the mesh (C43). EigenHDF5::load is external: it gives the dimensions and the elements of the dataset. | Model/Hdf5Inputs (Hdf5WaveSpectrumObserver, stl_io_hdf5, inputs written by xdyn.cpp) on Model/Hdf5 | list of the datasets to create, pairwise apart, written one after the other (writes_hold); elements read back by the layout in memory; sum of waves by C51, mesh by C43 | `Hdf5.context_read_back`, `Hdf5.mesh_read_back`, `Hdf5.hull_read_back`, `Hdf5.triangles_read_back`, `Hdf5.polygons_read_back`, `Hdf5.degenerate_facet` |
| C195 | The results do not depend on the origin of the axes nor on the date | proved — Exact equality of the observations, for the executable (simSystem) and the co-simulation (sscSystem), for every Runge-Kutta method whose stages do not go back in time. Concrete case: a barge kept by a dynamic positioning system. | the simulations of C179 and C182 (Model/Mechanical, Model/Control, Model/Solver); shifted, mirrored and turned states in Spec/Frame | the equations of motion of the images are the images of the equations; Runge-Kutta runs related step by step (`carried`), normalisation included; derivatives for exact motions; counterexample computed for `euler` | `Sim.simulation_moved` |
| C196 | The image of a simulation in the centre plane | proved — Exact equality of the observations, even with the drift of the norm of the quaternion between steps. `isMirror_of_inertia`: what the hypothesis on the body means for its inertia matrix. | the simulations of C179 and C182 (Model/Mechanical, Model/Control, Model/Solver); shifted, mirrored and turned states in Spec/Frame | the equations of motion of the images are the images of the equations; Runge-Kutta runs related step by step (`carried`), normalisation included; derivatives for exact motions; counterexample computed for `euler` | `Sim.simulation_mirrored`, `Sim.stays_in_plane`, `Sim.isMirror_of_inertia` |
| C197 | The results do not depend on the orientation of the axes | partial — The exact equations of motion do not depend on the orientation (unit quaternions, forces in NED applied at the centre of gravity), and the simulations of bodies that do not turn do not either. The claim is false for bodies that turn: the quaternion is not normalised during the simulation and the rotation matrix of a quaternion that is not a unit quaternion depends on the axes; `orientation_matters` has a free body that is simulated at x = 2.5 m from the heading 0 and at x = -3 m instead of -2.5 m from the heading of 180 degrees. | the simulations of C179 and C182 (Model/Mechanical, Model/Control, Model/Solver); shifted, mirrored and turned states in Spec/Frame | the equations of motion of the images are the images of the equations; Runge-Kutta runs related step by step (`carried`), normalisation included; derivatives for exact motions; counterexample computed for `euler` | `Sim.motion_turned_partial`, `Sim.simulation_turned_partial`, `Sim.orientation_matters` |
| C198 | Simulations converge to the exact motion | proved — One body, no controller (the heading that the controllers use jumps at 180 degrees). The constant is not computed; the bound is of the first order, which is what holds with quadratic damping for any method. Real arithmetic. | the simulations of C179 (Model/Mechanical, Model/Solver, Model/Integrators); exact motions of Spec/Energy, distances in Spec/Converge | the equations are Lipschitz where the states are bounded (closure lemmas); local error of a Runge-Kutta step and of the exact motion against a step of Euler, accumulated by induction on the steps; states limited to a box outside of which no stage goes for small steps | `Sim.simulation_converges`, `Sim.motions_unique`, `Sim.euler_weighted`, `Sim.rk4_weighted` |
| C199 | Co-simulations converge wherever they are cut | proved — One body, no controller, as in C198; each request lasts a whole number of time steps or less than that (the last step is completed by the server). Real arithmetic; the Euler angles (SSC) are a parameter. | the requests of C185 (Spec/Chain, Model/Server) with the equations of C198 | invariant on the distance to the exact motion plus the error on the norm of the quaternion: a step adds a constant times the square of the time step, a normalisation adds nothing | `Sim.requests_converge` |
| C200 | Simulations with controllers converge to the exact motion | proved — The heading the controllers read (SSC's Euler angles) is a parameter constrained only where the first axis of the body points forward: arctan(R10/R00). The range of headings is that of the property: across 180 degrees the heading jumps, and so does the torque. Real arithmetic. Convergence without controllers and for all headings is C198/C199. | the simulations of C182 and the requests of C185 with controllers (Spec/Control); Spec/Converge (`ReadsHeading`) | a heading law that is Lipschitz everywhere replaces the arctangent where the first axis does not point forward; the proof of C198/C199 redone in a tube round the exact motion, inside which both laws agree (least cosine along a compact interval) | `Sim.controlled_simulation_converges`, `Sim.controlled_requests_converge` |
| C201 | The solver rk4 is of the fourth order | proved — The tableau of ssc's RK4 stepper is part of the model (SSC is not in /repo). Real arithmetic: rounding errors are not modelled. For force models that are only Lipschitz (quadratic damping) see C198. | the simulations of C179 with `rk4` (Model/Integrators); Spec/Converge (`Push.Smooth`) | Lemmas/RK4: Taylor expansions of the exact motion with uniform remainders, stages compared with the exact values modulo the fourth power of the step (algebra of big O on a principal filter), stability of a step, induction on the steps; states as vectors of 13 reals | `Sim.rk4_fourth_order`, `RK4.global_error` |
| C202 | Simulations in waves converge to the exact motion | proved — The 2D interpolators of SSC are arbitrary functions; the hypothesis is that, once wrapped and mirrored by the code, they are Lipschitz in the incidence for the periods of the sea (continuous across the wrapping). The sea is the one of the simulator, not a distant one. Real arithmetic. | Model/WaveForces (the diffraction model of Model/Diffraction as a force model of a simulation) on Model/MultiBody, Model/Solver, Model/Integrators; equations of motion with a date in Spec/InWaves | the date becomes a fourteenth state, of rate 1: the method applied to the extended equations gives the same states and the dates of the steps; then the tube argument of C200, the responses being sums of products of Lipschitz functions | `Sim.waves_simulation_converges`, `Sim.waves_run_converges`, `Sim.waves_sum`, `Sim.euler_timed`, `Sim.rk4_timed` |
| C203 | The published propeller series | proved — The published tables are in Spec/BSeries, one line per term (the code has five arrays per polynomial). | Model/Wageningen, Model/Forces; the published tables in Spec/BSeries, one line per term | the sums of the code and of the published tables are compared term by term, then put in the force | `Forces.published_series`, `Forces.published_series_fast`, `Forces.kt_published`, `Forces.kq_published` |
| C204 | Sums of spectra | partial — The energy is the sum when the two densities have the same frequencies; refuted for the sum of a regular wave and irregular waves (the regular wave is multiplied by the interval between frequencies). | Model/AddedSpectra (sums, std::set as a finite set), Model/Waves (discretize, flatten) | induction on the terms; uniqueness of the sorted list of a finite set; linearity of the trapezoidal rule with C45 | `Waves.added_value`, `Waves.added_refused`, `Waves.added_frequencies`, `Waves.added_spreadings`, `Waves.added_energy_partial`, `Waves.regular_wave_added_refuted` |
| C205 | Answer of the gRPC co-simulation server | proved — turning_answer is a concrete request (two states, dates 41 and 42) answered with dates 0, 1, 2 | Model/Server (cosimToGrpc, stepQuaternion, stepEuler) | unfolding for any request; combination with the requests of C185 for the states of the answer | `Server.answer_describes`, `Server.grpc_step`, `Server.grpc_step_euler`, `Server.answer_as_request`, `Server.grpc_simulation`, `Server.turning_answer` |
| C206 | Only the resultant of the force models matters | proved — in exact arithmetic | Model/MultiBody (sum_of_forces, dx_dt), Model/Sim, Model/Solver, Model/Server; SameResultant and Amounts in Props/Resultant | sums of permuted or split lists; successful evaluations are carried over through the steps of any solver (induction on the program of a step and on the number of steps) | `Sim.order_of_forces`, `Sim.split_force`, `Sim.same_simulation`, `Sim.same_answers`, `Sim.same_derivatives`, `Sim.linear_damping_split`, `Sim.quadratic_damping_split`, `Sim.constant_force_split` |
| C207 | Convergence with several bodies | proved — exact arithmetic; the bodies have no controllers and no blocked states; the example after the theorems has two balls thrown at different dates | Model/Fleet, Model/MultiBody, Model/Integrators; TogetherOfOrder in Props/FleetConverge | C178 (each body moves as alone) with C198 and C201, and uniform constants over the bodies | `Sim.fleet_converges`, `Sim.fleet_fourth_order` |
| C208 | The results do not depend on the units | partial — Proved for the simulation with the force models and the station-keeping controllers, for the wrench of any propeller and for that of a rudder with a given thrust. False for the controller that keeps the heading (it multiplies the angular acceleration by the inertia in heave: `heading_units_matter`) and for a rudder behind a propeller (the thrust is the norm of six components, newtons added to newton metres: `rudder_units_matter`). `isScaled_of_inertia`: what the hypothesis on the body means for its inertia matrix. | Spec/Scale (units of every quantity, force models and controllers in other units), Model/Integrators, Model/Control, Model/Forces (propeller, Rudder) | the equations of motion are carried from one system of units to the other; a step of a Runge-Kutta method commutes with that change (derivatives multiplied by a number, step divided by it) | `Sim.simulation_scaled_partial`, `Sim.isScaled_of_inertia`, `Sim.propeller_scaled`, `Sim.rudder_scaled`, `Sim.rudder_units_matter`, `Sim.heading_units_matter` |
| C209 | The wave grid of the JSON and websocket outputs | partial — Proved for frames that are not turned with respect to NED and at least two points where the bounds differ (with one point only, the upper bound is not in the grid); false in a turned frame (grid_wrong_in_rotated_frame). The object is read member by member: the whole line is not valid JSON because the text is between single quotes (C76). | Model/JsonWaves, Model/Observer (putGrid), Model/WaveGrid, Model/Base91; the client in Props/JsonWaves (member, readElevation) | the mesh (C54), the matrix column by column, and the round trip of base91 (C01) put together | `Obs.wave_message_partial`, `Obs.grid_members`, `WaveGrid.grid_wrong_in_rotated_frame` |
| C210 | Wave heights around moving bodies | partial — The heights are right in every frame; the coordinates written beside them are wrong in a turned frame (coordinates_of_turned_mesh, the same defect as C54). | Model/WaveFeed on Model/MultiBody (frames), Model/Fleet and Model/WaveGrid; placement of a body and of the points of the mesh written out in Props/WaveFeed (Placed, carriedPoint, Heights, Coordinates) | induction on the bodies for the frames that are known after the update; the mesh (C54) for the rest; the conjugation by the quaternion for turned bodies | `Multi.waves_in_ned`, `Multi.waves_follow_body`, `Multi.waves_turn_with_body_partial`, `Multi.unknown_frame_refused`, `Multi.no_point_nothing_written`, `Multi.output_waves_partial`, `Multi.coordinates_of_turned_mesh` |
| C211 | The tables of damping and retardation functions | proved — The interpolation (SSC) is assumed to go through its points. | Model/RadiationDebug (CSVWriter, constructor), Model/Hdb (retardation); the reader in Props/RadiationDebug (firstTable, secondTable, cell) | the text as lines and the lines as fields joined by a separator, then splitting is the inverse of joining; names of the columns by evaluation (36 of them) | `Hdb.no_debug_text`, `Hdb.damping_table`, `Hdb.retardation_table`, `Hdb.tables_of_the_force_model` |
| C212 | The text of a history | partial — Proved for histories with samples; printing a history without samples throws (size() - 1 wraps around). | Model/HistoryText, Model/History | induction on the number of samples written; the unsigned subtraction is computed modulo 2^64 | `History.history_text_partial`, `History.empty_history_not_printed`, `History.current_date` |
| C213 | A propeller given by its open water tables | partial — Everything but the last sentence is proved, the interpolation (SSC) being assumed to go through its points. The last sentence is refuted: when the ship moves, a propeller that does not turn has an infinite advance ratio and the evaluation is refused. | Model/KtKq, Model/Forces (advanceRatio, propeller); specification Tabulated and Interpolates in Props/KtKq | field arithmetic; bounds of an increasing list by cases on its ends | `Forces.open_water_point`, `Forces.open_water_domain`, `Forces.stopped_open_water_propeller_refused`, `Forces.reversed_open_water_propeller_refused` |
| C214 | Where a controlled force acts | partial — Proved for positions in NED, in the frame of the body itself, of the bodies that come before it in the file, and of force models. Refuted for the frame of a body that comes after (force_of_previous_evaluation): the force uses the place that this body had in the previous evaluation. | Model/AttachedFrames on Model/MultiBody and Model/WaveFeed; SameEffect (work in every motion, in NED) in Props/AttachedFrames | invariant of the frames under additions with other names; power of a transported wrench (C119); induction on the bodies for the frames that are known when the forces of a body are evaluated | `Multi.force_acts_where_declared`, `Multi.force_carried_by_body`, `Multi.force_fixed_in_ned`, `Multi.force_follows_body`, `Multi.frames_of_an_evaluation`, `Multi.unknown_force_frame_refused`, `Multi.force_carried_by_later_body`, `Multi.force_of_previous_evaluation` |
| C215 | A body thrown with a spin | proved — the parabola and the uniform rotation are written in Spec/Flight; the inertia is that of a rigid body at its centre of gravity; example: a plank that tumbles end over end | Sim, Solver, Body, gravity (Model/Mechanical); the flight in Spec/Flight | the explicit motion satisfies Newton's equations (derivatives of the quaternion and of the rotation matrix); convergence of C198 and C201 | `Sim.flight_is_motion`, `Sim.flight_simulation`, `Sim.flight_simulation_rk4` |
| C216 | Energy and momentum in the results of a simulation | proved — examples: the energy, the momentum and the angular momentum of the plank of C215 | Sim, Solver, Body, gravity (Model/Mechanical); energy and momentum of Spec/Energy | quantities constant along the exact motion (C188, C189), Lipschitz on bounded sets, with the convergence of C198 and C201 | `Sim.energy_kept`, `Sim.energy_kept_rk4`, `Sim.momentum_kept`, `Sim.flight_energy_kept` |
| C217 | The quaternion converter | partial — Holds for unit quaternions and four arguments; refuted otherwise: with less than four arguments the behaviour is undefined, with more the status is that of a success, and a quaternion of another norm is not normalised and gives another angle. | quat2eul (Model/Quat2Eul), the extraction of the angles (SSC) being external | direct, with the quaternion of a rotation (C140); the usual formulas meet what is assumed about SSC; counterexamples | `Tools.quat2eul_angles_partial`, `Tools.quat2eul_hypotheses`, `Tools.usualAngles_gives`, `Tools.quat2eul_wrong_number`, `Tools.quat2eul_not_normalised` |
| C218 | The choice of the solver and of the time step does not change the results, in the limit | proved — One body without controller, as in C198: the existence of the exact solution is a hypothesis. The constant is not computed. Real arithmetic. | the simulations of C198 | the distances of both results to the exact solution (C198) | `Sim.solvers_agree` |
| C219 | A longer simulation only adds lines | proved — SSC's scheduler is modelled by the current date. | Model/Solver | induction on the loop for both end dates together; the observations only grow | `Solver.longer_extends`, `Solver.longer_fails` |

## Findings about the code

Each of these is proved about the model (theorem `*_refuted` or the like of the property in brackets) or follows from reading the modelled lines.

* **STL**: a text whose first line is `solid` without a name is read as binary; a blank line ended by CR LF after a facet is undefined behaviour; a word of 20
  characters or more overflows `token[20]`; a truncated binary file gives facets that are not in it [C71, C101, C102].
* **History**: a value recorded at the current date does not replace the previous one; dropping old samples loses the interpolation at the oldest date [C11, C14].
* **Co-simulation**: dates of gRPC requests are lost; a valid quaternion request can be refused; omitted commands keep the values of the previous request; results do not
  contain everything [C18, C20, C27, C37].
* **Observers**: forced states are observed for one body only; the wrench of controlled forces is observed in the wrong frame or point; values are duplicated; JSON lines
  are not well formed for some requests; wave grids are wrong in turned frames [C24, C29, C35, C54, C76].
* **Body**: `get_current_state_values(idx >= 1)` writes out of bounds; the potential energy of gravity uses the first body; an absolute tolerance on the symmetry of
  the inertia matrix accepts matrices that are not positive; additional values of a row are ignored [C103, C107].
* **Waves**: filtering loses the phases; constant phases throw when there are more directions than frequencies; the test of the depth is inverted; without stretching the
  attenuation is above one in crests; the last directional sector is lost; JONSWAP is negative for gamma > exp(1/0.287); cos2s is NaN for non-integer s
  [C46, C48, C49, C52, C53, C78, C117].
* **HDB**: RAO tables are in the order of the file while periods and incidences are sorted; the periods of the six lines of a matrix are not compared; the integration bound
  may be the lowest frequency; the frequency bounds and the calculation point of radiation damping are ignored (and its z is initialised with y); Clenshaw-Curtis and Filon
  throw at run time [C86, C89, C90].
* **Forces**: the pitch ratio is not restricted; a propeller gives NaN when ship and propeller are stopped, and pushes forward when it turns backwards; the rudder takes the norm of the six components
  of the propeller's wrench for its thrust and, going astern without thrust, sees a flow in the wrong direction; the heading controller uses the heave inertia and is not periodic;
  the station-keeping force is not turned to the body frame; quadratic damping with coupling can bring energy; constant forces in another frame have a wrong lever
  arm; linear hydrostatics divide an angle by a distance; the fast hydrostatic potential energy has the wrong sign and is measured in the body frame; the exact application point uses `J00` for
  `J11`, a direction of length g and a transposed rotation [C58, C92, C93, C94, C95, C96, C106, C115, C118].
* **Meshes**: a facet of more than three vertices with three consecutive ones on the surface reads out of bounds; a triangle entirely in the surface counts on both sides; `ymax` of the closing
  facets is never initialised with the data, `find_extreme_nodes` starts from column 0 of the mesh, `extreme_edge` from edge 0; the direction of a non-convex waterline can be wrong; the closing
  normal is (0,0,-1) in the body frame whatever the attitude; the immersed volume is zero when the immersed facets alone add up to zero; GZ curves compare the weight with immersed plus emerged
  volumes [C112, C113].
* **Maneuvering**: what cannot be parsed at the end of an expression is ignored, an unreadable expression is NaN (`-x(t)`), `-3^2` is `(-3)^2`, printing drops needed parentheses; Tmax is too short
  for some delays [C59, C60, C61].
* **Configuration**: four-character file names throw `std::out_of_range`; file names beginning with `ws` are refused; `ws://host:80abc` is accepted; command names are ambiguous when a model name contains a
  parenthesis; two bodies with the same name shorten the history [C62, C63, C66, C67].
* **GZ and GM**: the Newton-Raphson result is discarded, so trim is always zero; the draft is searched in [zmin, zmax] instead of [-zmax, -zmin]; GZ has an extra cos(theta) and the GM model disturbs
  the shared kinematics [C70, C100, C104].
