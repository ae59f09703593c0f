{"id": "C01", "title": "base91 round trip", "statement": "base<91>::decode(base<91>::encode(bytes)) returns exactly the original bytes, whatever they are (the wave grids streamed by the JSON/websocket observers can be read back without loss).", "quantifier": "every finite sequence of bytes, of any length", "why_tests_cant": "The bit queue, the 13/14 bit switch and the trailing partial group depend on the whole prefix of the input: no finite sample covers all queue states and tails.", "anchors": ["code/base91x/base91.hpp: base<91>::encode, base<91>::decode", "code/observers_and_api/src/DictObserver.cpp: get_serializer"]}
{"id": "C02", "title": "base91 output alphabet", "statement": "Every character produced by base<91>::encode belongs to the 91-character printable alphabet; in particular it never contains a single quote, a backslash, a blank or a control character, so it can be embedded between single quotes as DictObserver does.", "quantifier": "every byte sequence and every position of its encoding", "why_tests_cant": "The input domain is infinite; a test only samples a few literals.", "anchors": ["code/base91x/base91.hpp: base<91>::encode, enctab", "code/observers_and_api/src/DictObserver.cpp"]}
{"id": "C03", "title": "base91 decoder skips foreign characters", "statement": "Inserting characters that are not in the base91 alphabet (blanks, line breaks, quotes...) anywhere in a text does not change what base<91>::decode returns.", "quantifier": "every text and every set of insertions", "why_tests_cant": "The input domain is infinite; a test only samples a few literals.", "anchors": ["code/base91x/base91.hpp: base<91>::decode, dectab"]}
{"id": "C04", "title": "base91 size bound", "statement": "Encoding n bytes yields at most 2*ceil(8n/13) characters and never fewer than ceil(8n*2/14) characters: the overhead promised by base91 (at most 23%).", "quantifier": "every byte sequence", "why_tests_cant": "The input domain is infinite; a test only samples a few literals.", "anchors": ["code/base91x/base91.hpp: base<91>::encode"]}
{"id": "C05", "title": "base64 round trip", "statement": "base<64>::decode(base<64>::encode(bytes)) returns exactly the original bytes, including inputs whose length is not a multiple of three.", "quantifier": "every finite sequence of bytes", "why_tests_cant": "The input domain is infinite; a test only samples a few literals.", "anchors": ["code/base91x/base91.hpp: base<64>::encode, base<64>::decode"]}
{"id": "C06", "title": "base64 output shape", "statement": "base<64>::encode yields exactly 4*ceil(n/3) characters, all of them in A-Za-z0-9+/ except for (3 - n mod 3) mod 3 trailing '='.", "quantifier": "every finite sequence of bytes", "why_tests_cant": "The input domain is infinite; a test only samples a few literals.", "anchors": ["code/base91x/base91.hpp: base<64>::encode"]}
{"id": "C07", "title": "binary STL round trip", "statement": "Reading with read_binary_stl the bytes produced by write_binary_stl gives back the same triangles (same count, same order, same 32-bit coordinates), the header, the normals and the spacer being ignored.", "quantifier": "every list of triangles with fewer than 2^32 facets", "why_tests_cant": "The input domain is infinite; a test only samples a few literals.", "anchors": ["code/external_file_formats/src/stl_reader.cpp: read_binary_stl", "code/external_file_formats/src/stl_writer.cpp: write_binary_stl"]}
{"id": "C08", "title": "History dates strictly increase", "statement": "After any sequence of calls to record (including rejected ones) on a fresh or reset History, the recorded dates are strictly increasing.", "quantifier": "every sequence of (t, value) records and every maximum length Tmax >= 0", "why_tests_cant": "It is an invariant over unbounded call histories, in which points are replaced, dropped and re-inserted.", "anchors": ["code/hdb_interpolators/src/History.cpp: History::record, add_value_to_history, shift_oldest_recorded_instant_if_necessary"]}
{"id": "C09", "title": "History never looks into the past when recording", "statement": "record(t,v) raises an error exactly when t is strictly before (and not numerically equal to) the latest recorded date; in that case the history is left unchanged, otherwise t becomes the latest date.", "quantifier": "every reachable history and every t, v", "why_tests_cant": "Ranges over every reachable history.", "anchors": ["code/hdb_interpolators/src/History.cpp: History::record"]}
{"id": "C10", "title": "History window length", "statement": "The duration covered by a History never exceeds its Tmax, and every query with tau > Tmax (by at least the 1E-12 tolerance) returns 0.", "quantifier": "every sequence of records, every Tmax >= 0, every tau", "why_tests_cant": "Invariant over unbounded call histories.", "anchors": ["code/hdb_interpolators/src/History.cpp: shift_oldest_recorded_instant_if_necessary, operator()"]}
{"id": "C11", "title": "History returns the latest value at tau = 0", "statement": "After a successful record(t,v), h(0) = v and get_current_time() = t.", "quantifier": "every sequence of records, every Tmax >= 0", "why_tests_cant": "Invariant over unbounded call histories, including those that just dropped points.", "anchors": ["code/hdb_interpolators/src/History.cpp: History::record, operator()"]}
{"id": "C12", "title": "History interpolates between neighbouring samples", "statement": "For 0 <= tau <= duration, h(tau) is the linear interpolation (up to the 1E-12 snapping of dates) between the two recorded samples that surround t - tau; it therefore lies between their values, and equals the recorded value at recorded dates.", "quantifier": "every history with strictly increasing dates and every tau", "why_tests_cant": "Requires the correctness of the binary search for every length and every position.", "anchors": ["code/hdb_interpolators/src/History.cpp: find_braketing_position, interpolate_value_in_interval, get_value"]}
{"id": "C13", "title": "History bracketing search", "statement": "The binary search used by all queries terminates and returns the index of the first recorded date that is not before the requested date (and the number of samples if there is none).", "quantifier": "every history with strictly increasing dates, of any length, and every date", "why_tests_cant": "Termination and correctness of a while(true) loop for every length.", "anchors": ["code/hdb_interpolators/src/History.cpp: find_braketing_position"]}
{"id": "C14", "title": "Dropping old samples preserves the remaining window", "statement": "When record drops samples older than Tmax, the value seen by any query inside the remaining window is unchanged (the point re-created at the beginning of the window is the value interpolated in the samples being dropped).", "quantifier": "every history, every new record, every date in the remaining window", "why_tests_cant": "The error only shows when one record drops several samples at once, i.e. for particular irregular step histories.", "anchors": ["code/hdb_interpolators/src/History.cpp: shift_oldest_recorded_instant_if_necessary"]}
{"id": "C15", "title": "History average", "statement": "average(T) of a history lies between the smallest and the largest recorded value, and is that value if all recorded values are equal; for T >= duration it is the trapezoidal mean over the whole history.", "quantifier": "every history with strictly increasing dates and every T >= 0", "why_tests_cant": "The input domain is infinite; a test only samples a few literals.", "anchors": ["code/hdb_interpolators/src/History.cpp: average, integrate, trapeze"]}
{"id": "C16", "title": "State vector layout", "statement": "The position of each of the thirteen states of each body in the global state vector is unique: two different (body, state) pairs never share an index, and n bodies fill exactly the indices 0 .. 13n-1.", "quantifier": "every number of bodies", "why_tests_cant": "Ranges over every number of bodies.", "anchors": ["code/core/inc/StateMacros.hpp", "code/core/src/State.cpp: get_StateType"]}
{"id": "C17", "title": "JSON co-simulation inputs", "statement": "When the states of a (JSON) request are in increasing time order, the inputs built by xdyn have as current date and current state the ones of the last state of the request, the full history ends with that state, and the history given to model exchange ends with the last but one state.", "quantifier": "every non-empty list of states with strictly increasing dates and every Tmax", "why_tests_cant": "Ranges over every request.", "anchors": ["code/observers_and_api/src/SimServerInputs.cpp: SimServerInputs::SimServerInputs", "code/observers_and_api/src/HistoryParser.cpp"]}
{"id": "C18", "title": "gRPC requests carry their dates", "statement": "A gRPC co-simulation or model-exchange request is equivalent to the JSON request with the same content: in particular the simulation starts at the date of the last state of the request.", "quantifier": "every gRPC request whose fields all have the same size", "why_tests_cant": "Ranges over every request: at t=0 the bug is invisible.", "anchors": ["code/executables/src/CosimulationServiceImpl.cpp: from_grpc", "code/executables/src/ModelExchangeServiceImpl.cpp: from_grpc"]}
{"id": "C19", "title": "gRPC request validation", "statement": "A gRPC request is refused with INVALID_ARGUMENT if and only if one of its state arrays does not have as many elements as 't'; accepted requests never make the conversion read out of the bounds of an array.", "quantifier": "every gRPC request", "why_tests_cant": "Ranges over every combination of sizes.", "anchors": ["code/executables/src/CosimulationServiceImpl.cpp: check_states_size, from_grpc"]}
{"id": "C20", "title": "gRPC model exchange answers every valid quaternion request", "statement": "For every accepted request with at least one state, dx_dt_quaternion answers with the derivatives, the date of the last state and the Euler angle rates of the last state, without any out-of-bounds access.", "quantifier": "every non-empty request", "why_tests_cant": "Undefined behaviour is not observable by a test that happens to read plausible memory.", "anchors": ["code/executables/src/ModelExchangeServiceImpl.cpp: dx_dt_quaternion, to_grpc, get_euler_derivative", "code/observers_and_api/inc/SimServerInputs.hpp: SimServerInputs(const double)"]}
{"id": "C21", "title": "Blocked states follow their prescription", "statement": "At every instant t, forcing the states sets every blocked state whose definition interval [tmin,tmax] contains t to the interpolated prescription, and changes no other state (nor any state of another body).", "quantifier": "every state vector, every set of blocked states, every t", "why_tests_cant": "The input domain is infinite; a test only samples a few literals.", "anchors": ["code/core/src/BlockedDOF.cpp: force_states, state_is_blocked"]}
{"id": "C22", "title": "A state cannot be blocked twice", "statement": "Building the blocked degrees of freedom raises an error if the same state is prescribed more than once (in the YAML, in CSV files, or in both), and succeeds otherwise.", "quantifier": "every list of prescriptions", "why_tests_cant": "The input domain is infinite; a test only samples a few literals.", "anchors": ["code/core/src/BlockedDOF.cpp: throw_if_already_defined"]}
{"id": "C23", "title": "The reported blocking force closes the equations of motion", "statement": "With forced state derivatives, the reported delta F satisfies M dX/dt = F + delta F, and delta F = 0 when no degree of freedom is blocked.", "quantifier": "every inertia matrix, every wrench, every state derivative", "why_tests_cant": "The input domain is infinite; a test only samples a few literals.", "anchors": ["code/core/src/BlockedDOF.cpp: get_delta_F"]}
{"id": "C24", "title": "Observed states are the forced states, for every body", "statement": "The states written to the outputs are the simulation states in which the blocked states of *every* body have been replaced by their prescription.", "quantifier": "every number of bodies and every set of blocked states", "why_tests_cant": "Only visible with several bodies having different blocked states.", "anchors": ["code/core/src/Sim.cpp: output", "code/core/src/Body.cpp: block_states_if_necessary"]}
{"id": "C25", "title": "Quaternion normalisation", "statement": "After each evaluation the attitude quaternion of every body has unit norm, represents the same rotation as before, and all the other states are unchanged.", "quantifier": "every state vector whose quaternions are not zero, every number of bodies", "why_tests_cant": "The input domain is infinite; a test only samples a few literals.", "anchors": ["code/core/src/Sim.cpp: normalize_quaternions, operator()"]}
{"id": "C26", "title": "Quaternion kinematics preserve the norm", "statement": "The quaternion derivative computed from the angular velocity is orthogonal to the quaternion (d|q|^2/dt = 0), and the rotation matrix built from a unit quaternion is orthogonal with determinant 1.", "quantifier": "every quaternion and every angular velocity", "why_tests_cant": "The input domain is infinite; a test only samples a few literals.", "anchors": ["code/core/src/Body.cpp: calculate_state_derivatives, get_rot_from_ned_to"]}
{"id": "C27", "title": "Co-simulation steps depend on the request only", "statement": "The result of a co-simulation step depends only on the request (states, commands, Dt) and on the simulation model, not on the requests processed before by the same server.", "quantifier": "every sequence of previous requests and every request", "why_tests_cant": "Ranges over every history of previous requests; the leak only shows when a later request omits a command.", "anchors": ["code/observers_and_api/src/SimStepper.cpp: SimStepper::step", "code/core/src/Sim.cpp: reset_history, set_bodystates, set_command_listener"]}
{"id": "C28", "title": "Wrench transport is invertible and preserves power", "statement": "The wrench of a controllable force model expressed at G in the body frame has the same power on every rigid-body motion as the wrench expressed at the model's own origin, and transporting it back gives the original wrench.", "quantifier": "every rotation matrix, position, force, torque and rigid-body motion", "why_tests_cant": "The input domain is infinite; a test only samples a few literals.", "anchors": ["code/core/src/ControllableForceModel.cpp: operator(), feed"]}
{"id": "C29", "title": "The observed wrench of a controlled force is the computed one", "statement": "The wrench written to the outputs for a controlled force, in its own frame, is the wrench computed by the model in that frame.", "quantifier": "every body position, centre of gravity and model position", "why_tests_cant": "Only visible when the body is not at the origin of the NED frame.", "anchors": ["code/core/src/Sim.cpp: output", "code/core/src/ControllableForceModel.cpp: feed"]}
{"id": "C30", "title": "Damping dissipates energy", "statement": "Linear damping with a positive semi-definite matrix and quadratic damping with a non-negative diagonal matrix never give energy to the body.", "quantifier": "every damping matrix, every velocity", "why_tests_cant": "The input domain is infinite; a test only samples a few literals.", "anchors": ["code/force_models/src/LinearDampingForceModel.cpp", "code/force_models/src/QuadraticDampingForceModel.cpp"]}
{"id": "C31", "title": "Gravity is the weight", "statement": "The gravity force has norm m g, points downwards in the NED frame whatever the attitude, and has no moment about G.", "quantifier": "every attitude, every mass, every g", "why_tests_cant": "The input domain is infinite; a test only samples a few literals.", "anchors": ["code/force_models/src/GravityForceModel.cpp"]}
{"id": "C32", "title": "Fixed-step simulation grid", "statement": "A simulation between tstart and tend with step dt observes the system at tstart + i dt, i = 0..N, in order, exactly once each, N being the first i such that tstart + i dt >= tend.", "quantifier": "every tstart, tend, dt > 0 and every system", "why_tests_cant": "Ranges over every duration and step; includes termination.", "anchors": ["code/core/inc/solver.hpp: quicksolve", "code/observers_and_api/inc/simulator_api.hpp: simulate"]}
{"id": "C33", "title": "Output columns are the requested ones", "statement": "An observer writes exactly the requested variables, in the requested order, on the title line and on every following line; it raises an error if a requested variable is not produced by the simulation.", "quantifier": "every list of requested variables and every set of available variables", "why_tests_cant": "The input domain is infinite; a test only samples a few literals.", "anchors": ["code/core/src/Observer.cpp"]}
{"id": "C34", "title": "CSV lines have a constant number of fields", "statement": "Every line of a CSV output, including the title line, has the same number of comma-separated fields, namely the number of requested variables.", "quantifier": "every non-empty list of requested variables, including names that contain commas", "why_tests_cant": "The input domain is infinite; a test only samples a few literals.", "anchors": ["code/observers_and_api/src/CsvObserver.cpp", "code/core/src/Observer.cpp"]}
{"id": "C35", "title": "Every observed value reaches the dictionary outputs once", "statement": "JSON and websocket outputs contain every observed scalar under the key given by its name 'var(key)': distinct variable names never overwrite each other.", "quantifier": "every list of variable names", "why_tests_cant": "The input domain is infinite; a test only samples a few literals.", "anchors": ["code/observers_and_api/src/DictObserver.cpp: extractKeyVarFromString, get_serializer"]}
{"id": "C36", "title": "JSON key/value lists are well separated", "statement": "For n entries the dictionary observer writes n key/value pairs separated by n-1 commas.", "quantifier": "every map of any size", "why_tests_cant": "The input domain is infinite; a test only samples a few literals.", "anchors": ["code/observers_and_api/src/DictObserver.cpp: flushMap"]}
{"id": "C37", "title": "Co-simulation results contain all the steps and all the variables", "statement": "The results returned by the co-simulation server have one entry per observed step, in order, each with its date, its thirteen states and all the other observed variables as extra observations.", "quantifier": "every sequence of observations", "why_tests_cant": "The input domain is infinite; a test only samples a few literals.", "anchors": ["code/observers_and_api/src/EverythingObserver.cpp: observe, add, get_inserter"]}
{"id": "C38", "title": "Edge immersion classification", "statement": "Each edge is classified exactly once as emerged, immersed, crossing the free surface or lying on it, according to the signs of the immersions of its two ends.", "quantifier": "every pair of immersions", "why_tests_cant": "The input domain is infinite; a test only samples a few literals.", "anchors": ["code/mesh/src/MeshIntersector.cpp: get_edge_immersion_status, crosses_free_surface, is_emerged, is_immersed"]}
{"id": "C39", "title": "Edge / free surface intersection", "statement": "The point inserted on a crossing edge lies strictly inside the edge and its (linearly interpolated) immersion is zero, whatever the direction in which the edge is traversed; its wave height and position are interpolated at the same place of the edge, and no other node is added.", "quantifier": "every pair of immersions of opposite signs, every pair of points", "why_tests_cant": "The input domain is infinite; a test only samples a few literals.", "anchors": ["code/mesh/src/MeshIntersector.cpp: edge_intersection"]}
{"id": "C40", "title": "Every facet is classified", "statement": "After each update every facet of the hull is either emerged, or immersed, or split into one emerged and one immersed part; no facet is lost.", "quantifier": "every mesh of triangles (the hulls read from STL files) and every set of immersions, after any history of updates", "why_tests_cant": "The input domain is infinite; a test only samples a few literals.", "anchors": ["code/mesh/src/MeshIntersector.cpp: classify_facet, find_intersection_with_free_surface, split_partially_immersed_facet_and_classify"]}
{"id": "C41", "title": "Splitting a triangle conserves its area vector", "statement": "The emerged and immersed parts of a split triangle are closed polygons with consistent orientation, on the right side of the free surface, and their area vectors (hence their areas) add up to those of the triangle; a triangle lying entirely in the free surface is put unchanged on both sides.", "quantifier": "every triangle, every immersions", "why_tests_cant": "The input domain is infinite; a test only samples a few literals.", "anchors": ["code/mesh/src/MeshIntersector.cpp: split_partially_immersed_facet_and_classify", "code/mesh/src/Mesh.cpp: create_facet_from_edges"]}
{"id": "C42", "title": "Oriented edge identifiers", "statement": "An oriented edge identifier encodes its edge index and its direction without loss, reversing twice gives the same identifier, and the first vertex of an oriented edge is the second one of its reverse.", "quantifier": "every edge index and direction", "why_tests_cant": "The input domain is infinite; a test only samples a few literals.", "anchors": ["code/mesh/src/Mesh.cpp", "code/mesh/inc/Mesh.hpp"]}
{"id": "C43", "title": "Mesh building shares vertices and edges", "statement": "Building a mesh from a list of facets stores each distinct point once and each distinct edge once, and the vertex list of each facet gives back the points of the facet in order.", "quantifier": "every list of facets", "why_tests_cant": "The input domain is infinite; a test only samples a few literals.", "anchors": ["code/mesh/src/MeshBuilder.cpp"]}
{"id": "C44", "title": "Volume of a closed polyhedron does not depend on the origin", "statement": "The volume computed as a sum over facets of area * (normal . point) / 3 of a closed surface does not depend on the position of the frame, and is additive.", "quantifier": "every closed list of triangles, every translation", "why_tests_cant": "The input domain is infinite; a test only samples a few literals.", "anchors": ["code/mesh/src/MeshIntersector.cpp: facet_volume, volume"]}
{"id": "C45", "title": "Spectrum flattening keeps the energy", "statement": "The flattened spectrum has n_omega * n_psi components, and the sum of a^2/2 is the (trapezoidal) double integral of the spectral density; each component keeps its own frequency, direction, wave number and phase.", "quantifier": "every discrete spectrum", "why_tests_cant": "The input domain is infinite; a test only samples a few literals.", "anchors": ["code/environment_models/src/discretize.cpp: flatten"]}
{"id": "C46", "title": "Spectrum filtering keeps the requested energy", "statement": "Filtering keeps the most energetic components, at least the requested fraction of the energy, and no component could be removed; kept components are unchanged.", "quantifier": "every flat spectrum and every ratio", "why_tests_cant": "The input domain is infinite; a test only samples a few literals.", "anchors": ["code/environment_models/src/discretize.cpp: filter"]}
{"id": "C47", "title": "Frequency discretisation", "statement": "The angular frequencies used for a continuous spectrum are n increasing values from omega_min to omega_max inclusive; invalid bounds raise an error.", "quantifier": "every omega_min, omega_max, n", "why_tests_cant": "The input domain is infinite; a test only samples a few literals.", "anchors": ["code/environment_models/src/WaveSpectralDensity.cpp: get_angular_frequencies"]}
{"id": "C48", "title": "Wave phases", "statement": "A wave model built with a constant phase gives that phase to each of its n_omega * n_psi components.", "quantifier": "every discrete spectrum, of any numbers of frequencies and directions", "why_tests_cant": "The error only shows when there are more directions than frequencies.", "anchors": ["code/environment_models/src/WaveModel.cpp: add_constant_phases", "code/environment_models/src/discretize.cpp: flatten"]}
{"id": "C49", "title": "The configured water depth is used", "statement": "When a positive water depth is given for a spectrum, the dispersion relation and the pressure attenuation for this depth are used; when no depth (zero) is given the infinite depth ones are used.", "quantifier": "every depth", "why_tests_cant": "Only a comparison of results for all depths would show that depth is ignored.", "anchors": ["code/parser_extensions/src/builders.cpp: parse_directional_spectrum"]}
{"id": "C50", "title": "Wave stretching", "statement": "With delta-stretching the water column between the wave surface and the stretching depth h is mapped monotonically on the calm water column: the bottom h is fixed, depths below h are unchanged, and the free surface is mapped to delta times the elevation.", "quantifier": "every h, delta, elevation and z", "why_tests_cant": "The input domain is infinite; a test only samples a few literals.", "anchors": ["code/environment_models/src/Stretching.cpp: rescaled_z"]}
{"id": "C51", "title": "Airy elevation", "statement": "The free-surface elevation of an Airy model is bounded by the sum of the amplitudes, is the superposition of its components, and the elevation of several wave models is the sum of their elevations.", "quantifier": "every spectrum, position, date", "why_tests_cant": "The input domain is infinite; a test only samples a few literals.", "anchors": ["code/environment_models/src/Airy.cpp: elevation", "code/core/src/SurfaceElevationFromWaves.cpp"]}
{"id": "C52", "title": "No dynamic pressure above the free surface", "statement": "The dynamic pressure of a point above the free surface (z < eta) is zero, and below the surface its absolute value is at most rho g sum(a) times the attenuation, the attenuation being in [0,1] and decreasing with depth.", "quantifier": "every spectrum, position, date", "why_tests_cant": "The input domain is infinite; a test only samples a few literals.", "anchors": ["code/environment_models/src/Airy.cpp: dynamic_pressure", "code/environment_models/src/discretize.cpp: dynamic_pressure_factor"]}
{"id": "C53", "title": "Wave spectra are non-negative", "statement": "The Bretschneider, Pierson-Moskowitz, JONSWAP (for gamma up to exp(1/0.287)), Dirac spectra and the Cos2s spreading are non-negative.", "quantifier": "every parameter and every frequency / direction", "why_tests_cant": "The input domain is infinite; a test only samples a few literals.", "anchors": ["code/environment_models/src/BretschneiderSpectrum.cpp", "code/environment_models/src/JonswapSpectrum.cpp"]}
{"id": "C54", "title": "Wave output mesh", "statement": "The wave height mesh has nx*ny points covering [xmin,xmax]x[ymin,ymax] including both ends, in the order expected when the elevations are put back on the grid.", "quantifier": "every mesh definition", "why_tests_cant": "The input domain is infinite; a test only samples a few literals.", "anchors": ["code/core/src/SurfaceElevationBuilder.cpp: make_wave_mesh", "code/core/src/SurfaceElevationInterface.cpp"]}
{"id": "C55", "title": "Change of frame of hydrodynamic matrices", "statement": "Converting the matrices read from an AQUAPLUS file into the body frame is an involution, preserves symmetry and the quadratic form up to the change of axes.", "quantifier": "every 6x6 matrix", "why_tests_cant": "The input domain is infinite; a test only samples a few literals.", "anchors": ["code/hdb_interpolators/src/HDBParser.cpp: convert_matrices_from_aquaplus"]}
{"id": "C56", "title": "Wave incidence used by diffraction", "statement": "Interpolated diffraction RAOs are 2*pi-periodic in the incidence, and with mirroring the RAO for an incidence in (pi, 2 pi) is the one for its symmetric incidence, with the sign changed for sway, roll and yaw.", "quantifier": "every incidence", "why_tests_cant": "The input domain is infinite; a test only samples a few literals.", "anchors": ["code/hdb_interpolators/src/DiffractionInterpolator.cpp"]}
{"id": "C57", "title": "Rudder area partition", "statement": "The rudder areas inside and outside the propeller wake are non-negative and add up to the rudder area.", "quantifier": "every rudder and propeller geometry, every wake", "why_tests_cant": "The input domain is infinite; a test only samples a few literals.", "anchors": ["code/force_models/src/RudderForceModel.cpp: get_Ar"]}
{"id": "C58", "title": "Wageningen domain", "statement": "The Wageningen propeller model only accepts parameters within the domain of validity of the series, and evaluates the polynomials only for advance ratios inside [0,1.5].", "quantifier": "every parameter set, every advance ratio", "why_tests_cant": "The input domain is infinite; a test only samples a few literals.", "anchors": ["code/force_models/src/WageningenControlledForceModel.cpp"]}
{"id": "C59", "title": "Maneuvering expressions: precedence and associativity", "statement": "An arithmetic expression of a maneuvering model is evaluated with the usual precedence, left-associativity and parentheses: a text written with the documented grammar (sums of products of powers, all operators associating to the left, parentheses, calls, blanks anywhere) has, at every date and in every state, the value of that expression.", "quantifier": "every expression, of any depth", "why_tests_cant": "The input domain is infinite; a test only samples a few literals.", "anchors": ["code/force_models/src/maneuvering_compiler.cpp", "code/force_models/inc/maneuvering_grammar.hpp"]}
{"id": "C60", "title": "Maneuvering expressions are entirely read", "statement": "If an expression of a maneuvering model contains anything that cannot be parsed, an error is raised (nothing is silently ignored).", "quantifier": "every string", "why_tests_cant": "The input domain is infinite; a test only samples a few literals.", "anchors": ["code/force_models/src/maneuvering_compiler.cpp: compile"]}
{"id": "C61", "title": "Maneuvering models get a history long enough", "statement": "The history length requested by a maneuvering model is at least the largest delay its expressions use.", "quantifier": "every expression and every date", "why_tests_cant": "The input domain is infinite; a test only samples a few literals.", "anchors": ["code/force_models/src/ManeuveringInternal.cpp: FindTmax, get_min, get_max", "code/force_models/src/ManeuveringForceModel.cpp: get_Tmax"]}
{"id": "C62", "title": "Output format from file extension", "statement": "get_format and get_format_for_wave_observer return the format that corresponds to the extension of the file name, for every name that has a non-empty stem, and raise InvalidInputException for the other extensions.", "quantifier": "every file name", "why_tests_cant": "The error only shows for names of four characters.", "anchors": ["code/yaml_parser/src/parse_output.cpp: get_format, get_format_for_wave_observer"]}
{"id": "C63", "title": "Websocket address", "statement": "An accepted websocket address is 'ws://' + a non-empty host without '/', ':' or blank + a port in 1..65535, and the host and port of the parsed output are the ones of the address.", "quantifier": "every string", "why_tests_cant": "The input domain is infinite; a test only samples a few literals.", "anchors": ["code/yaml_parser/src/parse_address.cpp: build_YamlOutput_from_WS_URL"]}
{"id": "C64", "title": "Exactly one wave model", "statement": "Building a simulation with two understood wave models, or with one that is not understood, raises an error; otherwise the (at most one) wave model of the input is used.", "quantifier": "every list of environment models and of parsers", "why_tests_cant": "The input domain is infinite; a test only samples a few literals.", "anchors": ["code/core/src/SimulatorBuilder.cpp: get_wave"]}
{"id": "C65", "title": "Force models are all built, in order, or an error is raised", "statement": "Every force model of the input gives a force acting on its body, in order; a model that no parser understands raises an error.", "quantifier": "every list of force models and parsers", "why_tests_cant": "The input domain is infinite; a test only samples a few literals.", "anchors": ["code/core/src/SimulatorBuilder.cpp: add, forces_from"]}
{"id": "C66", "title": "History is long enough for every force model", "statement": "The history length of a body is at least the one requested by each of the forces and controlled forces acting on it.", "quantifier": "every set of bodies and forces", "why_tests_cant": "The input domain is infinite; a test only samples a few literals.", "anchors": ["code/core/src/SimulatorBuilder.cpp: get_max_history_length"]}
{"id": "C67", "title": "Commands", "statement": "A command given as a table is interpolated linearly between its dates; a constant command has its value at all dates; the command of one force model never changes the command of another one.", "quantifier": "every set of commands with distinct (model, command) names", "why_tests_cant": "The input domain is infinite; a test only samples a few literals.", "anchors": ["code/parser_extensions/src/listeners.cpp", "code/core/src/ControllableForceModel.cpp: get_commands"]}
{"id": "C68", "title": "GZ curve abscissae", "statement": "get_phi returns 2N+1 angles (N = round(phi_max/dphi)), increasing, symmetric, from -phi_max to phi_max; invalid inputs raise an error.", "quantifier": "every dphi and phi_max", "why_tests_cant": "The input domain is infinite; a test only samples a few literals.", "anchors": ["code/gz_curves/src/GZCurve.cpp: get_phi"]}
{"id": "C69", "title": "GZ equilibrium search", "statement": "The search of the equilibrium draft terminates, and for a resultant that is continuous and monotonic returns a draft within 1E-10 m of an equilibrium.", "quantifier": "every resultant force function and every initial interval", "why_tests_cant": "Termination and convergence for every function.", "anchors": ["code/gz_curves/src/GZCurve.cpp: zeq"]}
{"id": "C70", "title": "GZ curves are computed at the equilibrium trim", "statement": "The trim angle used for the GZ curve is the one at which the body is in equilibrium (the result of the Newton-Raphson search).", "quantifier": "every hull", "why_tests_cant": "Invisible for hulls that are symmetric fore-aft.", "anchors": ["code/gz_curves/src/GZCurve.cpp: get_Xeq"]}
{"id": "C71", "title": "Truncated binary STL files", "statement": "Reading a binary STL file shorter than announced by its header never uses an indeterminate value: it is refused, or the missing facets are not returned.", "quantifier": "every byte sequence", "why_tests_cant": "The input domain is infinite; a test only samples a few literals.", "anchors": ["code/external_file_formats/src/stl_reader.cpp: read_binary_stl"]}
{"id": "C72", "title": "Quaternion kinematics", "statement": "The derivatives of the quaternion computed for a body rotating at (p,q,r) are those of a rotation: the matrix built from the quaternion changes at the rate R*[pqr]x.", "quantifier": "every quaternion and every rotation speed", "why_tests_cant": "The input domain is infinite; a test only samples a few literals.", "anchors": ["code/core/src/Body.cpp: calculate_state_derivatives", "code/core/src/BodyStates.cpp: get_rot_from_ned_to"]}
{"id": "C73", "title": "gRPC model exchange with Euler angles", "statement": "For every accepted non-empty request, when the derivatives can be computed, dx_dt_euler_321 answers OK with the thirteen derivatives in the documented order and with the Euler rates of the last state of the request.", "quantifier": "every request and every state of the server", "why_tests_cant": "The input domain is infinite; a test only samples a few literals.", "anchors": ["code/executables/src/ModelExchangeServiceImpl.cpp: dx_dt_euler_321, to_grpc, get_euler_derivative"]}
{"id": "C74", "title": "Euler angle rates", "statement": "The Euler angle rates returned by the model exchange server are the derivatives of the Euler angles of a body rotating at (p,q,r).", "quantifier": "every attitude away from the singularity, every rotation speed", "why_tests_cant": "The input domain is infinite; a test only samples a few literals.", "anchors": ["code/executables/src/ModelExchangeServiceImpl.cpp: get_euler_derivative"]}
{"id": "C75", "title": "The solver forces the blocked states of every body", "statement": "After each step the states that are blocked at that date, for every body, have their prescribed value and all the other states are unchanged.", "quantifier": "every number of bodies, every set of prescriptions written in the YAML file", "why_tests_cant": "The input domain is infinite; a test only samples a few literals.", "anchors": ["code/core/src/Sim.cpp: force_states", "code/core/src/BlockedDOF.cpp: force_states"]}
{"id": "C76", "title": "Each JSON line is well formed", "statement": "Every line of a JSON output file, and every message of a websocket output, is a well formed JSON object.", "quantifier": "every list of requested variables and every sequence of observations", "why_tests_cant": "The commas depend on flags kept from one line to the next and on which kinds of variables are requested: every combination and every number of lines must be covered.", "anchors": ["code/observers_and_api/src/DictObserver.cpp: flush_after_write, serializeDictMap1, serializeDictMap2", "code/observers_and_api/src/JsonObserver.cpp"]}
{"id": "C77", "title": "Centre of mass of a closed hull", "statement": "The centre of mass computed for a closed hull of triangles moves with the hull when the hull is translated, the volume does not change, and for a tetrahedron the volume and centre are those of the tetrahedron.", "quantifier": "every closed list of triangles of non-zero volume, every translation", "why_tests_cant": "The input domain is infinite; a test only samples a few literals.", "anchors": ["code/mesh/src/MeshIntersector.cpp: center_of_mass", "code/mesh/src/CenterOfMass.cpp"]}
{"id": "C78", "title": "Directional spreading over the whole circle", "statement": "The directions used for a continuous directional spreading cover the circle, so that the energy of the discrete spectrum is the integral of the spreading over 2*pi.", "quantifier": "every number of directions, every spreading", "why_tests_cant": "The input domain is infinite; a test only samples a few literals.", "anchors": ["code/environment_models/src/WaveDirectionalSpreading.cpp: get_directions", "code/environment_models/src/discretize.cpp: flatten"]}
{"id": "C79", "title": "Waves travel at their phase speed", "statement": "A single wave component travels without deformation at speed omega/k in direction psi, and its elevation at a fixed point is periodic of period 2*pi/omega.", "quantifier": "every component, position, date", "why_tests_cant": "The input domain is infinite; a test only samples a few literals.", "anchors": ["code/environment_models/src/Airy.cpp: elevation"]}
{"id": "C80", "title": "Orbital velocities do not depend on the stretching", "statement": "Delta-stretching changes the dynamic pressure only: the orbital velocities are the same for all stretching parameters, and are zero above the free surface.", "quantifier": "every stretching, spectrum, position, date", "why_tests_cant": "The input domain is infinite; a test only samples a few literals.", "anchors": ["code/environment_models/src/Airy.cpp: orbital_velocity"]}
{"id": "C81", "title": "Airy velocities and pressure are consistent (infinite depth)", "statement": "Without stretching, the orbital velocity and dynamic pressure fields given for the points under the surface are incompressible, irrotational and satisfy the linearised momentum equation; at the mean level the dynamic pressure balances the elevation and, with the dispersion relation, the vertical velocity is the one of the surface.", "quantifier": "every spectrum, position, date", "why_tests_cant": "The input domain is infinite; a test only samples a few literals.", "anchors": ["code/environment_models/src/Airy.cpp: orbital_velocity, dynamic_pressure"]}
{"id": "C82", "title": "Airy velocities and pressure are consistent (finite depth)", "statement": "The same with the finite depth factors, for the points between the surface and the bottom, and the vertical velocity is zero on the bottom.", "quantifier": "every spectrum, depth, position, date", "why_tests_cant": "The input domain is infinite; a test only samples a few literals.", "anchors": ["code/environment_models/src/Airy.cpp: orbital_velocity, dynamic_pressure", "code/environment_models/src/discretize.cpp: dynamic_pressure_factor_sh"]}
{"id": "C83", "title": "RAO evaluation", "statement": "A RAO of module 1 and phase 0 gives the wave elevation; the response is bounded by the sum of module times amplitude; a RAO of the wrong size raises an error.", "quantifier": "every spectrum, RAO, position, date", "why_tests_cant": "The input domain is infinite; a test only samples a few literals.", "anchors": ["code/environment_models/src/Airy.cpp: evaluate_rao"]}
{"id": "C84", "title": "Finite depth wave number", "statement": "The dispersion relation for a depth h has exactly one positive solution; when accepted (k*h >= pi/10) it lies in the interval searched [k0, 3.5 k0], and the derivatives given to the root search are the right ones.", "quantifier": "every frequency and depth", "why_tests_cant": "The input domain is infinite; a test only samples a few literals.", "anchors": ["code/environment_models/src/WaveNumberFunctor.cpp", "code/environment_models/src/WaveSpectralDensity.cpp: get_wave_number"]}
{"id": "C85", "title": "Added mass and damping matrices come from the file", "statement": "Each line of the added mass and radiation damping matrices used by the simulation is read from a section of the HDB file bearing the name of that line, with the columns in order; a file in which a line is missing is refused.", "quantifier": "every HDB file, period and axis", "why_tests_cant": "The input domain is infinite; a test only samples a few literals.", "anchors": ["code/hdb_interpolators/src/HDBParser.cpp: get_matrix, fill"]}
{"id": "C86", "title": "RAO tables come from the file", "statement": "The RAO used for a wave period and a direction listed in the HDB file is the one the file gives for this period and this direction, whatever the order of the periods and directions in the file.", "quantifier": "every HDB file", "why_tests_cant": "The input domain is infinite; a test only samples a few literals.", "anchors": ["code/hdb_interpolators/src/HDBParser.cpp: get_rao"]}
{"id": "C87", "title": "Diffraction wrench transport and period check", "statement": "The diffraction force and moment returned at the point where forces are summed are equivalent to those at the calculation point (same power in every rigid motion); waves whose period is outside the periods of the HDB file by more than 0.01 s are refused, all others are accepted.", "quantifier": "every wrench, point and spectrum", "why_tests_cant": "The input domain is infinite; a test only samples a few literals.", "anchors": ["code/force_models/src/DiffractionForceModel.cpp: evaluate, check_all_omegas_are_within_bounds"]}
{"id": "C88", "title": "Discretization of the retardation functions", "statement": "The delays at which the retardation functions are computed are the requested number of values, equally spaced from tau min to tau max; the angular frequencies of the radiation damping are 2 pi / T for the periods of the HDB file, in increasing order, and a zero period is refused.", "quantifier": "every bound and every number of points (at least two)", "why_tests_cant": "The input domain is infinite; a test only samples a few literals.", "anchors": ["code/hdb_interpolators/src/RadiationDampingBuilder.cpp: build_regular_intervals"]}
{"id": "C89", "title": "Truncation of the cosine transform", "statement": "The damping neglected by truncating the cosine transform of the retardation function is below the tolerance for every neglected frequency.", "quantifier": "every damping function and frequency range", "why_tests_cant": "The input domain is infinite; a test only samples a few literals.", "anchors": ["code/hdb_interpolators/src/RadiationDampingBuilder.cpp: find_integration_bound"]}
{"id": "C90", "title": "Radiation damping", "statement": "The radiation damping force is zero until the velocity history reaches tau min, depends only on the velocities of the last tau max seconds, and takes into account the quadratures (each of the seven documented names gives its own method, any other is refused), the frequency bounds and the calculation point given in the YAML file.", "quantifier": "every history, retardation function, quadrature and YAML input", "why_tests_cant": "The input domain is infinite; a test only samples a few literals.", "anchors": ["code/force_models/src/RadiationDampingForceModel.cpp: get_convolution_for_axis, get_wrench"]}
{"id": "C91", "title": "Rudder force", "statement": "The rudder force never has a component propelling the ship along the flow (it is minus the drag), has no lift when the rudder is in line with the flow, and is symmetric between port and starboard; the wake reduction factor lies between 0.5 and 1; its moment is that of a force applied at the rudder.", "quantifier": "every rudder, rudder angle, flow angle and speed", "why_tests_cant": "The input domain is infinite; a test only samples a few literals.", "anchors": ["code/force_models/src/RudderForceModel.cpp: get_wrench, get_force, get_vs"]}
{"id": "C92", "title": "Propeller force", "statement": "A stopped propeller gives no force; the rotation sense changes the sign of the torque only; turning a propeller backwards does not push forward.", "quantifier": "every propeller, speed and rotation speed", "why_tests_cant": "The input domain is infinite; a test only samples a few literals.", "anchors": ["code/force_models/src/AbstractWageningen.cpp: get_force, advance_ratio"]}
{"id": "C93", "title": "Heading and station-keeping controllers", "statement": "With these controllers the heading (and position) of the ship obey the second order equation whose damping and period are those of the YAML file, and the force pushes the ship towards its target, for every heading.", "quantifier": "every inertia matrix, gain, state and target", "why_tests_cant": "The input domain is infinite; a test only samples a few literals.", "anchors": ["code/force_models/src/SimpleHeadingKeepingController.cpp: get_force", "code/force_models/src/SimpleStationKeepingController.cpp: get_force"]}
{"id": "C94", "title": "Linear and quadratic damping models", "statement": "Linear and quadratic damping with a positive semi-definite matrix never bring energy to the ship; quadratic damping changes sign with the velocity; the resistance acts along the axis of the ship and brakes it when the curve has the sign of the speed.", "quantifier": "every positive matrix and velocity", "why_tests_cant": "The input domain is infinite; a test only samples a few literals.", "anchors": ["code/force_models/src/LinearDampingForceModel.cpp", "code/force_models/src/QuadraticDampingForceModel.cpp"]}
{"id": "C95", "title": "Points of application of forces", "statement": "Controlled forces, constant forces and buoyancy are equivalent, at the point where forces are summed, to the force at their declared point of application (same power in every rigid motion); the weight is m*g downwards in the NED frame for every attitude.", "quantifier": "every wrench, frame, point and attitude", "why_tests_cant": "The input domain is infinite; a test only samples a few literals.", "anchors": ["code/core/src/ControllableForceModel.cpp: operator()", "code/force_models/src/ConstantForceModel.cpp: operator()", "code/force_models/src/HydrostaticForceModel.cpp: operator()", "code/force_models/src/GravityForceModel.cpp: operator()"]}
{"id": "C96", "title": "Linear hydrostatics", "statement": "The linear hydrostatic force is zero at the equilibrium in calm water, linear in the deviations from it, does not change when ship and water rise together, and on a plane wave surface the mean angle used is the angle of the surface.", "quantifier": "every stiffness matrix, state and wave elevation", "why_tests_cant": "The input domain is infinite; a test only samples a few literals.", "anchors": ["code/force_models/src/LinearHydrostaticForceModel.cpp"]}
{"id": "C97", "title": "Righting lever", "statement": "The GZ computed from a hydrostatic force is the horizontal lever arm between the centre of gravity and the centre of buoyancy, whatever the value of the force.", "quantifier": "every vertical force and attitude", "why_tests_cant": "The input domain is infinite; a test only samples a few literals.", "anchors": ["code/force_models/src/calculate_gz.cpp"]}
{"id": "C98", "title": "Default output contains every state of every body", "statement": "When no output section is given, the default output has exactly 1 + 16 x (number of bodies) columns: the date, then for each body, in the order of the input, its 16 states under the names var(body).", "quantifier": "every list of body names and every accepted output name", "why_tests_cant": "The input domain is infinite; a test only samples a few literals.", "anchors": ["code/yaml_parser/src/parse_output.cpp:generate_default_outputter_with_all_states_in_it", "code/yaml_parser/src/parse_output.cpp:fill"]}
{"id": "C99", "title": "Newton-Raphson of the GZ curves", "statement": "The search never changes the heel angle, returns its starting point when it is already an equilibrium, and returns the exact equilibrium of a linear resultant with a non-singular stiffness (finite differences being exact there).", "quantifier": "every starting point, resultant, stiffness matrix, tolerance and number of iterations", "why_tests_cant": "The input domain is infinite; a test only samples a few literals.", "anchors": ["code/gz_curves/src/gz_newton_raphson.cpp:GZ::newton_raphson", "code/gz_curves/src/ResultantForceComputer.cpp:GZ::ResultantForceComputer::K"]}
{"id": "C100", "title": "The draft search interval contains the equilibrium", "statement": "For every floating body (lighter than water), the interval in which the equilibrium draft is searched contains it: the resultant is downwards at one end and upwards at the other, and no error is raised.", "quantifier": "every mesh and every body lighter than water", "why_tests_cant": "The input domain is infinite; a test only samples a few literals.", "anchors": ["code/gz_curves/src/ResultantForceComputer.cpp:GZ::ResultantForceComputer::get_zmin_zmax", "code/gz_curves/src/GZCurve.cpp:GZ::Curve::zeq"]}
{"id": "C101", "title": "Text STL files: round trip", "statement": "Reading the text that write_stl produces for a mesh of triangles gives back this mesh (for coordinates exactly represented by their printed text), for any number of facets; a facet that is not a triangle is refused with an exception when read back, never truncated; a text without 'endsolid' is always refused; whatever the text, what is accepted is made of triangles and the reader terminates; comments and lines of spaces between the facets are ignored.", "quantifier": "every mesh; every text", "why_tests_cant": "The input domain is infinite; a test only samples a few literals.", "anchors": ["code/external_file_formats/src/stl_writer.cpp: write_stl", "code/external_file_formats/src/stl_reader.cpp: read_ascii_stl, read_vertex, read_normal, read_stl"]}
{"id": "C102", "title": "Text and binary STL data are told apart", "statement": "is_stl_data_binary returns false exactly for the data that begins with 'solid ' or 'SOLID ' after any number of blanks and tabs, and raises only on blank data.", "quantifier": "every byte string", "why_tests_cant": "The input domain is infinite; a test only samples a few literals.", "anchors": ["code/external_file_formats/src/stl_reader.cpp: is_stl_data_binary"]}
{"id": "C103", "title": "The state vector rebuilt from a body's history is its last recorded state", "statement": "After the states of a body have been recorded at a date, asking for its current state values returns the thirteen values recorded, at their places in the state vector; after a reset the histories are empty.", "quantifier": "every state vector, every date, every body index", "why_tests_cant": "The input domain is infinite; a test only samples a few literals.", "anchors": ["code/core/src/BodyStates.cpp: get_current_state_values", "code/core/src/Body.cpp: update_body_states, reset_history"]}
{"id": "C104", "title": "GM and GZ outputs", "statement": "The GZ output is the lever arm of the righting moment (distance, in the horizontal plane, between the lines of action of weight and buoyancy), the GM output is the slope of GZ with respect to heel, and computing them does not change the simulated motion.", "quantifier": "every hydrostatic model, attitude and increment dphi", "why_tests_cant": "The input domain is infinite; a test only samples a few literals.", "anchors": ["code/force_models/src/GMForceModel.cpp", "code/force_models/src/calculate_gz.cpp"]}
{"id": "C105", "title": "Archimedes' principle for the fast hydrostatic model", "statement": "For every closed hull entirely under a horizontal free surface, the sum of the hydrostatic forces on its facets is vertical, directed upwards, and equal to rho g times the enclosed volume; its horizontal moments are those of the displaced water.", "quantifier": "every closed facetted hull, every density, gravity and surface height", "why_tests_cant": "The input domain is infinite; a test only samples a few literals.", "anchors": ["code/force_models/src/FastHydrostaticForceModel.cpp", "code/core/src/SurfaceForceModel.cpp", "code/mesh/src/mesh_manipulations.cpp: centre_of_gravity"]}
{"id": "C106", "title": "Application point of the exact hydrostatic model", "statement": "The point of application computed by the exact hydrostatic model for an immersed facet is its centre of pressure: the force applied there has the moment of the pressure distribution.", "quantifier": "every planar immersed facet and every attitude of the body", "why_tests_cant": "The input domain is infinite; a test only samples a few literals.", "anchors": ["code/mesh/src/mesh_manipulations.cpp: exact_application_point, get_inertia_of_polygon_wrt", "code/core/src/Body.cpp: update_projection_of_z_in_mesh_frame"]}
{"id": "C107", "title": "An accepted inertia matrix defines a dynamics", "statement": "A matrix of inertia accepted when the body is built is symmetric positive definite, so that the accelerations are determined by the forces and kinetic energy is positive; other matrices are rejected.", "quantifier": "every pair of six-by-six matrices in the YAML data", "why_tests_cant": "The input domain is infinite; a test only samples a few literals.", "anchors": ["code/core/src/BodyBuilder.cpp: isSymmetricDefinitePositive, add_inertia", "code/external_data_structures/src/YamlDynamics6x6Matrix.cpp"]}
{"id": "C108", "title": "The hull is expressed in the body frame without deformation", "statement": "Building a body moves every vertex of the mesh to its coordinates in the body frame, turns the normals accordingly, and keeps areas, centres, distances and angles.", "quantifier": "every mesh, every position and attitude of the body frame relative to the mesh", "why_tests_cant": "The input domain is infinite; a test only samples a few literals.", "anchors": ["code/core/src/BodyBuilder.cpp: change_mesh_ref_frame"]}
{"id": "C109", "title": "A closed hull stays closed when cut by the free surface", "statement": "If every edge of the hull is run once in each direction by its facets, then so are the edges of the immersed part closed by the lid on the free surface.", "quantifier": "every mesh built from facets forming a closed hull, every immersion state", "why_tests_cant": "The input domain is infinite; a test only samples a few literals.", "anchors": ["code/mesh/src/MeshIntersector.cpp", "code/mesh/src/MeshBuilder.cpp"]}
{"id": "C110", "title": "Waterline edges are grouped by connectivity", "statement": "The edges lying on the free surface are dispatched in groups such that each of them is in exactly one group, exactly once, no group is empty, and two edges are in the same group if and only if one can go from one to the other through edges of the free surface having a common node.", "quantifier": "every mesh, every set of edges on the free surface; Boost's connected_components is assumed to return the connected components", "why_tests_cant": "The input domain is infinite; a test only samples a few literals.", "anchors": ["code/mesh/src/ClosingFacetComputer.cpp:112-181 get_connected_components, get_edges_per_component, group_connected_edges"]}
{"id": "C111", "title": "The closing facet of a polygonal waterline is this polygon", "statement": "When a connected group of edges of the free surface is a simple polygon, whatever the order and the direction in which its edges are stored and whatever the positions of its nodes, exactly one closing facet is created for it and its vertices are all the corners of the polygon, once each, in the order of the contour.", "quantifier": "every mesh, every polygon with at least three corners, all edge orders and directions, all positions of the nodes", "why_tests_cant": "The input domain is infinite; a test only samples a few literals.", "anchors": ["code/mesh/src/ClosingFacetComputer.cpp:371-582 next_edge, contour", "code/mesh/src/MeshIntersector.cpp:140-167 build_closing_edge"]}
{"id": "C112", "title": "Closing facets are oriented outwards", "statement": "The closing facet of a waterline is run in the direction of its outward normal, and the normal stored in the facet is its unit normal.", "quantifier": "every waterline polygon, every attitude of the body", "why_tests_cant": "The input domain is infinite; a test only samples a few literals.", "anchors": ["code/mesh/src/ClosingFacetComputer.cpp:483-549 direct_orientation, flip, contour", "code/mesh/src/MeshIntersector.cpp:140-167 build_closing_edge"]}
{"id": "C113", "title": "Immersed and emerged volumes", "statement": "The immersed volume is the volume enclosed by the immersed facets and by the closing facets which are not immersed facets themselves.", "quantifier": "every hull with flat facets and every waterline", "why_tests_cant": "The input domain is infinite; a test only samples a few literals.", "anchors": ["code/mesh/src/MeshIntersector.cpp:489-542 facet_volume, volume, immersed_volume, emerged_volume"]}
{"id": "C114", "title": "Waterline edges", "statement": "After a mesh has been cut by the free surface, the edges kept as lying on the surface are exactly the sides, of the emerged and immersed facets, whose two ends are on the free surface; they are never reduced to a point.", "quantifier": "every triangle mesh and every immersion of its nodes", "why_tests_cant": "The input domain is infinite; a test only samples a few literals.", "anchors": ["code/mesh/src/MeshIntersector.cpp: update_intersection_with_free_surface, split_partially_immersed_facet_and_classify", "code/mesh/src/Mesh.cpp"]}
{"id": "C115", "title": "Potential energy of the hydrostatic force", "statement": "The potential energy output for hydrostatics varies as the opposite of the work of the hydrostatic force, for every motion of the body.", "quantifier": "every closed hull and motion", "why_tests_cant": "The input domain is infinite; a test only samples a few literals.", "anchors": ["code/force_models/src/FastHydrostaticForceModel.cpp: pe"]}
{"id": "C116", "title": "Energy and peak of the wave spectra", "statement": "The Bretschneider and Pierson-Moskowitz spectra have the total energy (Hs/4)^2 and their maximum at the peak pulsation 2*pi/Tp; JONSWAP has its maximum there too, gamma*(1-0.287*ln(gamma)) times that of Bretschneider; a Dirac spectrum with a Dirac spreading gives one regular wave of amplitude Hs/2.", "quantifier": "every height, period, peak factor and pulsation", "why_tests_cant": "The input domain is infinite; a test only samples a few literals.", "anchors": ["code/environment_models/src/BretschneiderSpectrum.cpp", "code/environment_models/src/PiersonMoskowitzSpectrum.cpp", "code/environment_models/src/JonswapSpectrum.cpp", "code/environment_models/src/DiracSpectralDensity.cpp", "code/environment_models/src/discretize.cpp: flatten"]}
{"id": "C117", "title": "Directional spreadings", "statement": "For an integer exponent the cos2s spreading has integral one over a turn, its maximum in the main direction, is symmetric about it, and vanishes in the opposite direction; the Dirac spreading is zero outside of its direction.", "quantifier": "every main direction, integer exponent and direction", "why_tests_cant": "The input domain is infinite; a test only samples a few literals.", "anchors": ["code/environment_models/src/Cos2sDirectionalSpreading.cpp", "code/environment_models/src/DiracDirectionalSpreading.cpp"]}
{"id": "C118", "title": "Rudder behind a propeller", "statement": "The parts of the rudder in and outside of the wake of the propeller both oppose the flow in which they are; the wrench given to the simulator is that of the propeller plus the two rudder forces applied at the rudder; when the propeller gives no thrust the rudder behaves as in open water; the thrust used for the wake is that of the propeller.", "quantifier": "every rudder, propeller wrench, ship velocity and rudder angle", "why_tests_cant": "The input domain is infinite; a test only samples a few literals.", "anchors": ["code/force_models/src/RudderForceModel.cpp: get_rudder_force, get_force, get_vs, get_Ar, get_fluid_angle"]}
{"id": "C119", "title": "Sum of forces", "statement": "The wrench used to move a body has, in every motion of the body, the power of the Coriolis and centripetal forces plus that of every wrench of its force models, wherever it is applied and in whatever known frame it is given; the order in which the force models are given does not matter.", "quantifier": "every list of force models, frame, point of application, state and date", "why_tests_cant": "The input domain is infinite; a test only samples a few literals.", "anchors": ["code/core/src/Sim.cpp:145-180 sum_of_forces", "code/core/src/ForceModel.cpp: update", "code/force_models/src/DampingForceModel.cpp:28"]}
{"id": "C120", "title": "The derivatives are a function of the state", "statement": "Evaluating the simulation at a state and date gives derivatives, forces and histories which do not depend on the states evaluated before (other than through the recorded history of the body).", "quantifier": "every list of bodies, set of force models, state, date and every sequence of earlier evaluations", "why_tests_cant": "The input domain is infinite; a test only samples a few literals.", "anchors": ["code/core/src/Sim.cpp:127-135 dx_dt", "code/core/src/Body.cpp:64-126 update_kinematics, update"]}
{"id": "C121", "title": "Bodies do not act on each other", "statement": "In a simulation of several bodies whose force models only use NED and the frames of their own body, the derivatives, forces and history of a body are the same whatever the other bodies and their states.", "quantifier": "every list of bodies with different names, every state and date", "why_tests_cant": "The input domain is infinite; a test only samples a few literals.", "anchors": ["code/core/src/Sim.cpp:34-40, 127-180", "code/core/src/Body.cpp:129-161"]}
{"id": "C122", "title": "At a junction of the waterline, the next edge is chosen by geometry only", "statement": "When several edges of the free surface meet at a node, the edge by which the closing contour continues depends only on the positions of the nodes: it is the one whose turning angle is extreme, whatever the order and the direction in which the edges are stored.", "quantifier": "all sets of edges, nodes and directions of travel", "why_tests_cant": "The input domain is infinite; a test only samples a few literals.", "anchors": ["code/mesh/src/ClosingFacetComputer.cpp:next_edge", "code/mesh/src/ClosingFacetComputer.cpp:angle_between_edges"]}
{"id": "C123", "title": "The wave spectra of a distant wave model are the ones it sends", "statement": "When the wave model of a simulation is a distant gRPC server, the list of directional spectra used by xdyn (amplitudes, directions, frequencies, wave numbers and phases of each spectrum) is the list in the server's response.", "quantifier": "all responses: any number of spectra, any number of components, with or without phases", "why_tests_cant": "The input domain is infinite; a test only samples a few literals.", "anchors": ["code/grpc/src/SurfaceElevationFromGRPC.cpp:Impl::directional_spectra"]}
{"id": "C124", "title": "A failed gRPC call is reported", "statement": "A call to a distant model which does not end with the status OK stops the simulation with an error: the content of its response is never used; and a call with status OK never raises this error.", "quantifier": "all requests, all statuses, all responses", "why_tests_cant": "The input domain is infinite; a test only samples a few literals.", "anchors": ["code/grpc/src/SurfaceElevationFromGRPC.cpp:throw_if_invalid_status", "code/grpc/src/GRPCForceModel.cpp:throw_if_invalid_status"]}
{"id": "C125", "title": "A distant force model gets the wave data it asks for", "statement": "When a distant force model asks for wave data, it gets the elevations, orbital velocities, dynamic pressures and spectra of the simulation's wave model at the points it asked for, at the date that goes with them in the message, one value per point; without a wave model, the simulation stops with an error.", "quantifier": "all wave models, all requests of the distant model, all dates", "why_tests_cant": "The input domain is infinite; a test only samples a few literals.", "anchors": ["code/grpc/src/ToGRPC.cpp:ToGRPC::from_wave_information", "code/grpc/src/FromGRPC.cpp:FromGRPC::to_wave_request", "code/core/src/SurfaceElevationInterface.cpp"]}
{"id": "C126", "title": "A distant force model gets consistent state histories", "statement": "The histories sent to a distant force model are the recorded samples of the last `max_history_length` seconds, all of them, in chronological order: the k-th value of each of the thirteen states was recorded at the k-th date, and the k-th Euler angles are those of the k-th quaternion. With a null history length, the current values at the current date are sent.", "quantifier": "all sequences of recorded states, all history lengths", "why_tests_cant": "The input domain is infinite; a test only samples a few literals.", "anchors": ["code/grpc/src/ToGRPC.cpp:ToGRPC::from_state", "code/hdb_interpolators/src/History.cpp:History::get_values", "code/hdb_interpolators/src/History.cpp:History::get_dates"]}
{"id": "C127", "title": "The force of a distant model is its answer", "statement": "The force and torque of a distant gRPC force model are the six numbers of its response, in the order X, Y, Z, K, M, N, to a request containing the states, the commands and, only if the model needs waves, the wave data it asked for at the current position and date; its extra observations are the ones of that response.", "quantifier": "all servers, states, commands and dates", "why_tests_cant": "The input domain is infinite; a test only samples a few literals.", "anchors": ["code/grpc/src/GRPCForceModel.cpp:Impl::force", "code/grpc/src/FromGRPC.cpp:FromGRPC::to_force"]}
{"id": "C128", "title": "The values of a distant wave model are its answers", "statement": "With a distant wave model, the elevations, dynamic pressures and orbital velocities that xdyn uses at a set of points are the values answered by the server for these points and this date, one per point; lists of coordinates of different lengths are rejected.", "quantifier": "all servers, all sets of points, all dates", "why_tests_cant": "The input domain is infinite; a test only samples a few literals.", "anchors": ["code/grpc/src/SurfaceElevationFromGRPC.cpp:Impl::elevations", "code/grpc/src/SurfaceElevationFromGRPC.cpp:Impl::dynamic_pressures", "code/grpc/src/SurfaceElevationFromGRPC.cpp:Impl::orbital_velocities"]}
{"id": "C129", "title": "The co-simulation response is valid JSON holding every value", "statement": "The text sent back by the websocket co-simulation server is a JSON array with one object per state, in chronological order, in which each state, date and angle can be read back exactly and every extra observation appears under its name (null when it is not a number).", "quantifier": "all lists of states, all values, all names of extra observations", "why_tests_cant": "The input domain is infinite; a test only samples a few literals.", "anchors": ["code/yaml_parser/src/parse_history.cpp:encode_YamlStates"]}
{"id": "C130", "title": "A co-simulation response can be sent back as the next request", "statement": "The states of a response of the websocket co-simulation server, used as the `states` of the next request, are decoded to the same dates and states.", "quantifier": "all responses with finite states", "why_tests_cant": "The input domain is infinite; a test only samples a few literals.", "anchors": ["code/yaml_parser/src/parse_history.cpp:encode_YamlStates", "code/yaml_parser/src/parse_history.cpp:decode_YamlSimServerInputs"]}
{"id": "C131", "title": "Which JSON requests are accepted, and what they mean", "statement": "A JSON request is accepted exactly when it is an object with an array `states` of objects having the fourteen numbers t, x, y, z, u, v, w, p, q, r, qr, qi, qj, qk and, if present, a number `Dt` (0 by default) and an object or null `commands` of numbers; its meaning depends on these keys only, not on their order nor on other keys.", "quantifier": "all JSON documents", "why_tests_cant": "The input domain is infinite; a test only samples a few literals.", "anchors": ["code/yaml_parser/src/parse_history.cpp:decode_YamlSimServerInputs"]}
{"id": "C132", "title": "The model exchange response is valid JSON holding the thirteen derivatives", "statement": "The text sent back by the websocket model exchange server is a JSON object giving each of the thirteen derivatives under its name, exactly.", "quantifier": "all derivatives", "why_tests_cant": "The input domain is infinite; a test only samples a few literals.", "anchors": ["code/executables/src/xdyn_for_me.cpp:SimulationMessage::operator()"]}
{"id": "C133", "title": "Every websocket request gets one readable answer", "statement": "Each message received by the websocket servers is answered by exactly one message: the result or, if the evaluation fails, a JSON object {\"error\": text} with the text of the error.", "quantifier": "all results of an evaluation, all kinds of errors, all error texts", "why_tests_cant": "The input domain is infinite; a test only samples a few literals.", "anchors": ["code/executables/src/xdyn_for_cs.cpp:SimulationMessage::operator()", "code/executables/src/report_xdyn_exceptions_to_user.cpp:report_xdyn_exceptions_to_user"]}
{"id": "C134", "title": "Wave models superpose", "statement": "At every point and date, the elevation, the dynamic pressure and the orbital velocity of a sea made of several wave models are the sums of those of each model, whatever their order; without wave model (or with 'no waves') there is no pressure, no velocity and a flat surface; position vectors of different sizes raise an error.", "quantifier": "all lists of wave models, all points, dates and elevations", "why_tests_cant": "The input domain is infinite; a test only samples a few literals.", "anchors": ["code/core/src/SurfaceElevationFromWaves.cpp: wave_height, dynamic_pressure, orbital_velocity", "code/core/src/DefaultSurfaceElevation.cpp", "code/core/src/SurfaceElevationInterface.cpp: get_and_check_*"]}
{"id": "C135", "title": "Each hull is cut by the waves at its own position", "statement": "For each node of each hull, the immersion used to cut the hull is the depth of the node minus the elevation of the sea at the horizontal position of this node at the current date, in the NED frame, independently of the other bodies and of the previous dates.", "quantifier": "all seas, hulls, positions, numbers of bodies and histories of calls", "why_tests_cant": "The input domain is infinite; a test only samples a few literals.", "anchors": ["code/core/src/SurfaceElevationInterface.cpp: update_surface_elevation, compute_position_in_NED_frame", "code/core/src/BodyWithSurfaceForces.cpp: update_intersection_with_free_surface"]}
{"id": "C136", "title": "Froude-Krylov force", "statement": "The non-linear Froude-Krylov force is the integral on the immersed facets of the pressure of the waves (pressure at the centre of the facet times area and inward normal, moment at G accordingly); it vanishes without waves and out of the water, is bounded by rho g a times the immersed area, and every facet under the surface receives the pressure of the waves.", "quantifier": "all hulls, positions, seas and dates", "why_tests_cant": "The input domain is infinite; a test only samples a few literals.", "anchors": ["code/force_models/src/FroudeKrylovForceModel.cpp: get_dF", "code/core/src/SurfaceForceModel.cpp: operator()"]}
{"id": "C137", "title": "Response to several spectra", "statement": "The response computed from RAO tables in a sea made of several spectra is the sum of the responses to each spectrum with its own table; a missing table or a table of the wrong size never gives a value; the response in still water is zero.", "quantifier": "all seas, positions, dates and tables", "why_tests_cant": "The input domain is infinite; a test only samples a few literals.", "anchors": ["code/core/src/SurfaceElevationInterface.cpp: evaluate_rao"]}
{"id": "C138", "title": "Rotation convention", "statement": "A 'rotations convention' is used only if it lists the rotation around z first (psi or z), then theta' or y', then phi'' or x'', with at least one angle name; then the angles (phi,theta,psi) of the file mean Rz(psi) Ry(theta) Rx(phi). Anything else (other order, other number of elements, apostrophes missing or misplaced, axis names only) stops the construction of the simulation with an error.", "quantifier": "all lists of strings", "why_tests_cant": "The input domain is infinite; a test only samples a few literals.", "anchors": ["code/yaml_parser/src/external_data_structures_parsers.cpp: operator>>(YamlRotation), search_and_replace", "code/yaml_parser/src/check_input_yaml.cpp: check_rotations", "code/core/src/yaml2eigen.cpp: angle2matrix, match"]}
{"id": "C139", "title": "Initial states", "statement": "The simulation starts with thirteen states per body, in the order of the bodies: the position and velocities written in the YAML file, and a quaternion of norm 1 whose rotation is the one of the angles written in the file, whatever these angles.", "quantifier": "all numbers of bodies, positions, angles (including half turns and gimbal lock) and velocities", "why_tests_cant": "The input domain is infinite; a test only samples a few literals.", "anchors": ["code/core/src/update_kinematics.cpp: get_initial_states", "code/core/src/yaml2eigen.cpp: angle2matrix"]}
{"id": "C140", "title": "Quaternion of a rotation", "statement": "Converting a rotation (given by a matrix or by three angles) to a quaternion loses nothing: the quaternion has norm 1 and its rotation matrix is the given one, in each branch of the conversion.", "quantifier": "all rotation matrices, all angles", "why_tests_cant": "The input domain is infinite; a test only samples a few literals.", "anchors": ["code/core/src/BodyStates.cpp: convert(EulerAngles, YamlRotation)", "code/core/src/update_kinematics.cpp: get_initial_states"]}
{"id": "C141", "title": "Exit status", "statement": "The exit status of the executables tells whether the run succeeded: 0 if and only if the help was displayed or the simulation was completed.", "quantifier": "all command lines and all behaviours of the simulation", "why_tests_cant": "The input domain is infinite; a test only samples a few literals.", "anchors": ["code/executables/src/xdyn.cpp: main, run", "code/executables/src/xdyn_for_cs.cpp: main", "code/executables/src/report_xdyn_exceptions_to_user.cpp"]}
{"id": "C142", "title": "Checks of the command line", "statement": "A simulation or a server is started only if the command line gives a YAML file, a solver, a positive time step and (servers) a port from 1024 on, and always with the arguments of the command line.", "quantifier": "all command lines", "why_tests_cant": "The input domain is infinite; a test only samples a few literals.", "anchors": ["code/executables/src/parse_XdynCommandLineArguments.cpp: invalid", "code/executables/src/parse_XdynForCSCommandLineArguments.cpp: invalid", "code/executables/src/parse_XdynForMECommandLineArguments.cpp: invalid", "code/executables/src/xdyn_for_me.cpp: main"]}
{"id": "C143", "title": "Choice of the solver", "statement": "The solver used is the one named on the command line (euler, rk4 or rkck); any other name is an error.", "quantifier": "all strings", "why_tests_cant": "The input domain is infinite; a test only samples a few literals.", "anchors": ["code/executables/src/xdyn.cpp: solve", "code/observers_and_api/src/SimStepper.cpp: SimStepper::step"]}
{"id": "C144", "title": "Outputs of the YAML file", "statement": "Every element of section 'output' of the YAML file gives exactly one observer with its destination and its data, in the same order; a badly written element is an error.", "quantifier": "all lists of output elements", "why_tests_cant": "The input domain is infinite; a test only samples a few literals.", "anchors": ["code/yaml_parser/src/parse_output.cpp: parse_output, operator>>", "code/observers_and_api/src/ListOfObservers.cpp"]}
{"id": "C145", "title": "Wave output option", "statement": "Option -w f writes the wave heights in f unless the main output is an HDF5 file or a websocket, and -o and -w never remove the outputs of the YAML file.", "quantifier": "all YAML output sections, bodies, values of -o and -w", "why_tests_cant": "The input domain is infinite; a test only samples a few literals.", "anchors": ["code/executables/src/build_observers_description.cpp"]}
{"id": "C146", "title": "Environment constants", "statement": "The water density, viscosity and gravity of a simulation are those of the YAML file, and negative ones are refused.", "quantifier": "all triples of numbers", "why_tests_cant": "The input domain is infinite; a test only samples a few literals.", "anchors": ["code/core/src/EnvironmentAndFrames.cpp", "code/core/src/SimulatorBuilder.cpp: get_environment"]}
{"id": "C147", "title": "The sections on waves are read as written, or refused", "statement": "For every YAML document: the section of model 'waves' is accepted exactly when it has the documented keys, of the documented kinds, and then the discretization, the spectra (in order), the stretching, the depth and the output mesh the simulator gets are those of the document, every quantity converted to the international system with its own unit; the same for each kind of spectral density and of directional spreading and for models 'no waves' and 'grpc'. Reading never has undefined behaviour.", "quantifier": "all YAML documents, whatever the conversion of numbers and units", "why_tests_cant": "The input domain is infinite; a test only samples a few literals.", "anchors": ["code/yaml_parser/src/environment_parsers.cpp: parse_waves, operator>>, parse_wave_dirac_spectrum, parse_jonswap, parse_cos2s, parse_default_wave_model"]}
{"id": "C148", "title": "The sea that is simulated is the one of the file", "statement": "The free surface has one wave model per element of 'spectra', built from its own spectral density, directional spreading, depth, stretching and seed and from the discretization (number of frequencies, bounds, energy fraction) of the file; a 'dirac' spectrum and spreading give the regular wave of the height, pulsation and direction of the file at every point and date; otherwise every component has the amplitude the densities give it and its own random phase.", "quantifier": "all input files with model 'waves', all points and dates", "why_tests_cant": "The input domain is infinite; a test only samples a few literals.", "anchors": ["code/parser_extensions/src/builders.cpp: SurfaceElevationBuilder<SurfaceElevationFromWaves>::try_to_parse, parse_directional_spectrum, parse_wave_model, parse_spectral_density, parse_directional_spreading", "code/environment_models/src/discretize.cpp"]}
{"id": "C149", "title": "The input file is read as written, or refused", "statement": "For every YAML document: it is accepted as an input file exactly when it has the documented format; the bodies (name, mesh, positions, initial state, mass, inertia, blocked states, force models), the environment constants, the rotation convention and the command sections the simulator gets are then those of the document, in order and in the international system. Reading never has undefined behaviour.", "quantifier": "all YAML documents", "why_tests_cant": "The input domain is infinite; a test only samples a few literals.", "anchors": ["code/yaml_parser/src/SimulatorYamlParser.cpp: SimulatorYamlParser::parse", "code/yaml_parser/src/external_data_structures_parsers.cpp: operator>>"]}
{"id": "C150", "title": "The parameters of the force models are read as written, or refused", "statement": "For every YAML document of a force model (propellers, rudders, resistance, controllers, constant force, radiation damping, diffraction, linear hydrostatics, GM, distant models): it is accepted exactly when it has the documented keys and the parameters of the model are those of the document, in the international system; reading never has undefined behaviour.", "quantifier": "all YAML documents", "why_tests_cant": "The input domain is infinite; a test only samples a few literals.", "anchors": ["code/force_models/src: parse of each force model", "code/yaml_parser/src/external_data_structures_parsers.cpp"]}
{"id": "C151", "title": "A 6x6 matrix that is not one is refused", "statement": "Six rows of six numbers are read as the matrix they are, and any other content of a damping or stiffness matrix is refused with an error.", "quantifier": "all YAML documents", "why_tests_cant": "The input domain is infinite; a test only samples a few literals.", "anchors": ["code/yaml_parser/src/external_data_structures_parsers.cpp: operator>>(YamlDynamics6x6Matrix)", "code/force_models/src/DampingForceModel.cpp: parse"]}
{"id": "C152", "title": "The sense of rotation of a propeller is the one of the file", "statement": "Both documented values of the rotation of a propeller are understood and any other value is refused.", "quantifier": "all YAML documents of propellers", "why_tests_cant": "The input domain is infinite; a test only samples a few literals.", "anchors": ["code/force_models/src/AbstractWageningen.cpp: parse"]}
{"id": "C153", "title": "A malformed output section is refused", "statement": "For models 'no waves' and 'grpc', a complete section 'output' is read as written, an absent one gives no output, and a malformed one is reported.", "quantifier": "all YAML documents", "why_tests_cant": "The input domain is infinite; a test only samples a few literals.", "anchors": ["code/yaml_parser/src/environment_parsers.cpp: parse_default_wave_model, parse_grpc"]}
{"id": "C154", "title": "The keys of a maneuvering model are its functions", "statement": "Every key of a maneuvering model but 'commands' and 'reference frame' is kept with the text that follows it, in order; the reference frame, the name and the commands are those of the document; any other document is refused.", "quantifier": "all YAML documents of maneuvering models", "why_tests_cant": "The input domain is infinite; a test only samples a few literals.", "anchors": ["code/force_models/src/ManeuveringForceModel.cpp: parse"]}
{"id": "C155", "title": "The seed is the one of the file", "statement": "A sea state has the seed of the file: a non-negative integer, or none for 'none'; any other value is refused.", "quantifier": "all YAML documents", "why_tests_cant": "The input domain is infinite; a test only samples a few literals.", "anchors": ["code/parser_extensions/src/builders.cpp: WaveModelBuilder<Airy>::try_to_parse"]}
{"id": "C156", "title": "The commands of the file are those that are applied", "statement": "A section 'commands' gives, for each element, its name, its dates and the values of every other key, in the international system, or is refused.", "quantifier": "all YAML documents", "why_tests_cant": "The input domain is infinite; a test only samples a few literals.", "anchors": ["code/yaml_parser/src/parse_commands.cpp", "code/yaml_parser/src/SimulatorYamlParser.cpp: SimulatorYamlParser::parse"]}
{"id": "C157", "title": "HDB files are read as written", "statement": "For every HDB file with the format of AQUA+ (string and value keys, vectors, matrices, lists of matrices, lists of matrices with an incidence): every element is found with its name and its numbers, in the order of the file, whatever the blanks around names and numbers, the ends of lines (LF or CR LF) and a possible empty line after a vector or a matrix; a text has one content only.", "quantifier": "all texts with the format, of any length; any notation of numbers that is delimited by blanks and ends of lines", "why_tests_cant": "The input domain is infinite; a test only samples a few literals.", "anchors": ["code/external_file_formats/inc/hdb_grammar.hpp: hdb_grammar", "code/external_file_formats/src/hdb_to_ast.cpp: hdb::parse"]}
{"id": "C158", "title": "A malformed HDB file is refused", "statement": "A text that does not have the format of HDB files is refused, never read in part.", "quantifier": "all texts", "why_tests_cant": "The input domain is infinite; a test only samples a few literals.", "anchors": ["code/external_file_formats/src/hdb_to_ast.cpp: hdb::parse"]}
{"id": "C159", "title": "The force of a maneuvering model is the value of its expressions", "statement": "At every date and in every state, each component of the force is the value of the expression that follows its key in the input file, where a name stands for the expression of its own key, the command or the constant of that name, and a state function for the state at the asked delay; a component that is neither a key nor a command gives an exception; a definition that refers to itself has no value.", "quantifier": "all sets of expressions (of any size and depth of reference), commands, dates, histories of states and arithmetics", "why_tests_cant": "The input domain is infinite; a test only samples a few literals.", "anchors": ["code/force_models/src/ManeuveringForceModel.cpp: get_force, constructor", "code/force_models/src/maneuvering_DataSource_builder.cpp"]}
{"id": "C160", "title": "Every number that is written is found under its own name", "statement": "At every instant, every number the simulator writes (date, states, wrenches of all force models in each frame, blocked efforts, sums, extra observations) is found in the outputs under its name, not overwritten by another one.", "quantifier": "all sets of bodies, force models, names and values", "why_tests_cant": "The input domain is infinite; a test only samples a few literals.", "anchors": ["code/core/src/Sim.cpp: output, feed_sum_of_forces", "code/core/src/ForceModel.cpp: feed", "code/core/src/ControllableForceModel.cpp: feed", "code/core/src/Body.cpp: feed", "code/force_models/src: extra_observations"]}
{"id": "C161", "title": "The wrench of a controlled force written in the NED frame is the one applied to the body", "statement": "The wrench of a controlled force written in the NED frame is equivalent to the one applied to the body: it has the same power on every rigid motion.", "quantifier": "all positions and orientations of the body, wrenches and rigid motions", "why_tests_cant": "The input domain is infinite; a test only samples a few literals.", "anchors": ["code/core/src/ControllableForceModel.cpp: feed", "code/core/src/Sim.cpp: output"]}
{"id": "C162", "title": "The bodies of the simulation are those of the file", "statement": "A simulation built from an input file contains the bodies of the file, in order; each body has its own index, is built from its own data and its own mesh, keeps enough history for its own force models, is treated as a body with surface forces if and only if one of its own force models is one, and the force models that act on it are exactly those of its own sections, in the order of the file, each constructed with its own parameters by the parser of its own name.", "quantifier": "all lists of bodies, all sections, all sets of force models (including distant ones that change the outside world when they are constructed)", "why_tests_cant": "The input domain is infinite; a test only samples a few literals.", "anchors": ["code/core/src/SimulatorBuilder.cpp: SimulatorBuilder::build, get_bodies, get_forces, get_controlled_forces, make_mesh_map", "code/core/src/Sim.cpp: Sim::Impl"]}
{"id": "C163", "title": "A distant force model is given its parameters once", "statement": "While a simulation is built, each distant force model of the input file receives its parameters exactly once, in the order of the file.", "quantifier": "all lists of bodies with any number of distant force models", "why_tests_cant": "The input domain is infinite; a test only samples a few literals.", "anchors": ["code/core/src/SimulatorBuilder.cpp: SimulatorBuilder::build", "code/grpc/src/GRPCForceModel.cpp: GRPCForceModel::Impl"]}
{"id": "C164", "title": "A mesh is accepted if and only if its facets have the same orientation", "statement": "A closed mesh is accepted by the mesh builder if and only if all its facets are given in the same orientation (all clockwise or all anticlockwise seen from outside), and the orientation found is that of the facets.", "quantifier": "all meshes of triangles, any number of which are turned over", "why_tests_cant": "The input domain is infinite; a test only samples a few literals.", "anchors": ["code/mesh/src/mesh_manipulations.cpp: oriented_clockwise, barycenter", "code/mesh/src/MeshBuilder.cpp: MeshBuilder"]}
{"id": "C165", "title": "Diffraction force in a sea", "statement": "The diffraction model is built if and only if there is a wave model all the periods of which are in the periods of the HDB file up to 0.01 s; then, for every position and heading of the ship and every date, the force is equivalent to the wrench at the calculation point the components of which are the sums, over all the waves of all the spectra, of the RAO interpolated at the period and the incidence (heading minus direction) of the wave, times its amplitude and the sine of its phase at the calculation point minus the phase of the RAO; there is no force in still water.", "quantifier": "all seas (any number of spectra and waves), all RAO tables, all positions, headings, dates, calculation points", "why_tests_cant": "The input domain is infinite; a test only samples a few literals.", "anchors": ["code/force_models/src/DiffractionForceModel.cpp: DiffractionForceModel::Impl, evaluate, convert_to_periods", "code/core/src/SurfaceElevationFromWaves.cpp: get_wave_directions_for_each_model, get_wave_angular_frequency_for_each_model", "code/hdb_interpolators/src/DiffractionInterpolator.cpp"]}
{"id": "C166", "title": "Port and starboard symmetry of the diffraction force", "statement": "With the option mirror and RAO tables of a symmetric ship, in the mirror image of the sea a ship in the mirror position with the opposite heading receives the mirror image of the force and of the moment.", "quantifier": "all seas, all symmetric RAO tables, all positions and headings (including head and following waves), all dates", "why_tests_cant": "The input domain is infinite; a test only samples a few literals.", "anchors": ["code/force_models/src/DiffractionForceModel.cpp: DiffractionForceModel::Impl::evaluate", "code/hdb_interpolators/src/DiffractionInterpolator.cpp: interpolate_module, interpolate_phase"]}
{"id": "C167", "title": "Buoyancy of the model 'hydrostatic'", "statement": "For every position of a hull whose immersed facets and waterplane facets enclose a volume, the force of the model 'hydrostatic' is vertical, directed upwards, equal to rho g times the displaced volume and applied at the centroid of that volume, whatever the origin of the body frame; a hull out of the water has no force.", "quantifier": "every closed immersed part made of flat facets (any number of vertices), every density, gravity, attitude and centre of gravity", "why_tests_cant": "The input domain is infinite; a test only samples a few literals.", "anchors": ["code/force_models/src/HydrostaticForceModel.cpp: HydrostaticForceModel::operator()", "code/mesh/src/MeshIntersector.cpp: center_of_mass, has"]}
{"id": "C168", "title": "TSV output", "statement": "In TSV output, the first line gives the names of the requested variables, the second is made of as many dashes as the first has characters, and each following line gives the values of the requested variables at one observed date, in the order of the titles; this holds for every list of requested variables.", "quantifier": "every list of requested variables, every sequence of observations, every format of numbers without blanks", "why_tests_cant": "The input domain is infinite; a test only samples a few literals.", "anchors": ["code/observers_and_api/src/TsvObserver.cpp", "code/core/src/Observer.cpp"]}
{"id": "C169", "title": "HDB file, from the text to the simulation", "statement": "For every text that has the format of HDB files and contains the twelve lines of the added mass and radiation damping tables (same periods for the six lines of a matrix, no zero period): the file is accepted; the added mass of the body is the one of the first period of the file, in the frame of the body; asked for at a period of the file, it is the one of the file; the angular frequencies given to the radiation damping are 2 pi / T from the last period to the first, each with the damping coefficients of its own period.", "quantifier": "all texts, contents, tables and numbers of periods", "why_tests_cant": "The input domain is infinite; a test only samples a few literals.", "anchors": ["code/hdb_interpolators/src/HDBParser.cpp: HDBParser::Impl::Impl, get_added_mass, get_radiation_damping_coeff", "code/core/src/BodyBuilder.cpp: add_inertia"]}
{"id": "C170", "title": "HDB files without RAO", "statement": "A HDB file in which the diffraction (or Froude-Krylov) tables are missing can be used for the added mass and the radiation damping: the RAO can be asked for if and only if the file has the section and the subsection, for each of the four tables separately; otherwise an exception is thrown when they are asked for.", "quantifier": "all texts and the four kinds of tables", "why_tests_cant": "The input domain is infinite; a test only samples a few literals.", "anchors": ["code/hdb_interpolators/src/HDBParser.cpp: get_rao, get_diffraction_module_tables, get_froude_krylov_phase_periods"]}
{"id": "C171", "title": "Bollard pull of the B series", "statement": "When the ship does not move and the propeller turns, for every accepted number of blades and blade area ratio and every pitch ratio between 0.5 and 1.4, a propeller of the Wageningen B series pushes ahead, with a thrust coefficient of at least 0.17, and its torque coefficient is at least 0.014, with the sign of the documented rotation.", "quantifier": "all blades 2 to 7, area ratios, pitch ratios, speeds of rotation, diameters and densities (real numbers)", "why_tests_cant": "The input domain is infinite; a test only samples a few literals.", "anchors": ["code/force_models/src/WageningenControlledForceModel.cpp: Kt, Kq, coefficients", "code/force_models/src/AbstractWageningen.cpp: get_force"]}
{"id": "C172", "title": "Thrust decreases with speed", "statement": "For a propeller of the Wageningen B series in its domain, at a given speed of rotation and pitch, the thrust does not increase when the ship goes faster.", "quantifier": "all parameters in the domain of the series and all pairs of speeds", "why_tests_cant": "The input domain is infinite; a test only samples a few literals.", "anchors": ["code/force_models/src/WageningenControlledForceModel.cpp: Kt, saturate", "code/force_models/src/AbstractWageningen.cpp: advance_ratio, get_force"]}
{"id": "C173", "title": "The documented solvers run to the end", "statement": "A simulation started with a documented solver (euler, rk4 or rkck) in which no force model, no prescription of blocked states and no normalisation fails goes to the end and gives one observation for each date of the grid.", "quantifier": "All simulations, states, dates, time steps, recorded histories and the three documented solvers.", "why_tests_cant": "The input domain is infinite; a test only samples a few literals.", "anchors": ["code/executables/src/xdyn.cpp: solve", "code/observers_and_api/src/SimStepper.cpp", "code/hdb_interpolators/src/History.cpp: record", "code/core/src/Sim.cpp: operator()"]}
{"id": "C174", "title": "A falling body follows the exact motion", "statement": "A body subject to gravity only, that does not turn, simulated with rk4: every observed position is on the parabola of the exact motion, the velocities are the exact ones, the attitude does not change and the sum of kinetic and potential energy is constant, whatever the time step; with euler the velocities are exact and the distance fallen is short by g*time*dt/2.", "quantifier": "All masses and inertias, initial positions, velocities, attitudes, dates, time steps, durations and recorded histories.", "why_tests_cant": "The input domain is infinite; a test only samples a few literals.", "anchors": ["code/core/src/Sim.cpp: dx_dt, sum_of_forces", "code/core/src/Body.cpp: calculate_state_derivatives", "code/force_models/src/GravityForceModel.cpp", "code/core/inc/solver.hpp: quicksolve"]}
{"id": "C175", "title": "A body at rest in equilibrium stays at rest", "statement": "If a body has no velocity and the forces given by its force models at that state sum to zero, all the observed states of the simulation are exactly the initial one, for all durations and time steps.", "quantifier": "All sets of force models (controlled or not), positions, attitudes, dates, time steps, numbers of steps, recorded histories and all explicit methods whose stages never go back in time (euler and rk4 among them).", "why_tests_cant": "The input domain is infinite; a test only samples a few literals.", "anchors": ["code/core/src/Sim.cpp: dx_dt, sum_of_forces, output", "code/core/src/Body.cpp: calculate_state_derivatives", "code/core/inc/solver.hpp: quicksolve"]}
{"id": "C176", "title": "A floating body in equilibrium does not move", "statement": "A body without velocity, with the force models gravity and hydrostatic, whose displaced volume has the mass of the body and its centroid on the vertical of the centre of gravity, keeps exactly its position and attitude for the whole simulation.", "quantifier": "All hulls (immersed facets and waterplane facets that enclose a volume), attitudes, positions, inertias, densities, dates, time steps, numbers of steps, recorded histories, solvers euler and rk4.", "why_tests_cant": "The input domain is infinite; a test only samples a few literals.", "anchors": ["code/force_models/src/HydrostaticForceModel.cpp", "code/force_models/src/GravityForceModel.cpp", "code/core/src/Sim.cpp: dx_dt, sum_of_forces", "code/mesh/src/MeshIntersector.cpp: center_of_mass"]}
{"id": "C177", "title": "A body whose velocities are all prescribed moves with these velocities", "statement": "In a simulation where the six velocities of a body are prescribed and constant during the whole simulation (translation U in the axes of the body, no rotation), whatever the forces, the body is observed with the prescribed velocities, its attitude does not change and its position is the initial one plus the elapsed time multiplied by U in the axes of NED, whatever the velocity written in the initial conditions.", "quantifier": "all bodies, force models that can be evaluated, prescribed velocities, initial states without rotation, dates, time steps, recorded histories and consistent explicit methods (euler, rk4), for the solver of the executable xdyn and the one of the co-simulation", "why_tests_cant": "The input domain is infinite; a test only samples a few literals.", "anchors": ["code/core/src/BlockedDOF.cpp:263-305", "code/core/inc/solver.hpp:24-49", "code/executables/src/xdyn.cpp:36-54", "code/core/src/Sim.cpp:112-135,199-237"]}
{"id": "C178", "title": "Independent bodies move in one simulation as each of them does alone", "statement": "Take bodies with different names, none of whose force models uses the position of another body. If the simulation of each of them alone goes to the end, then the simulation of all of them together, with the same solver, dates, time step, blocked states, initial states, commands and recorded histories, goes to the end too; at the end the states and the recorded histories of each body are those it has when it is simulated alone, and the states written for each body are at every date exactly those written when that body is simulated alone (for a body with blocked states that is not the last one, the written states are those of C24). In particular any number of falling bodies follow each its own parabola with rk4.", "quantifier": "every number of bodies, force models (with memory of the recorded states, with or without commands), explicit solver, dates, time step, initial states and histories", "why_tests_cant": "The input domain is infinite; a test only samples a few literals.", "anchors": ["code/core/src/Sim.cpp: Sim::operator(), dx_dt, normalize_quaternions, force_states, output", "code/core/inc/solver.hpp: quicksolve", "code/core/src/SimulatorBuilder.cpp: bodies numbered in order"]}
{"id": "C179", "title": "A simulation is the solver applied to the equations of motion", "statement": "When the force models have no memory (none of them asks for past states) and the forces are a function of the state and of the date, the observations of a simulation are exactly the states that the chosen method (euler: Euler's method, rk4: the classical Runge-Kutta method) gives for the equations of motion, step after step on the grid of dates, with the quaternion normalised in the output; the order in which the histories are recorded, the re-evaluations and what was simulated before do not matter. This holds in particular for every list of force models among gravity, linear damping, quadratic damping, resistance curve and constant force in NED.", "quantifier": "every body without blocked states, list of such force models and parameters, initial state, recorded states, start and end dates, time step, method whose stages never go back in time", "why_tests_cant": "The input domain is infinite; a test only samples a few literals.", "anchors": ["code/core/src/Sim.cpp:Sim::operator()", "code/core/inc/solver.hpp:quicksolve", "code/force_models/src/DampingForceModel.cpp:operator()", "code/force_models/src/ResistanceCurveForceModel.cpp:operator()", "code/force_models/src/ConstantForceModel.cpp:operator()", "code/executables/src/xdyn.cpp:solve"]}
{"id": "C180", "title": "A body pushed straight ahead stays on its course", "statement": "When the forces on a body that moves along its own axis sum up to a force along this axis without moment, the simulation keeps it on its course with its attitude, whatever the attitude, and its speed and the distance are those of the one-dimensional problem m u' = f(u) solved by the same method; when the forces balance at its speed, the motion is exactly uniform; with euler and a resistance that balances the thrust at the speed u1, the speed increases to u1 without passing it if no step can pass it.", "quantifier": "every body, attitude, initial position and speed, list of force models among gravity, dampings, resistance curve and constant forces, time step, dates and recorded states", "why_tests_cant": "The input domain is infinite; a test only samples a few literals.", "anchors": ["code/force_models/src/ResistanceCurveForceModel.cpp:operator()", "code/force_models/src/ConstantForceModel.cpp:operator()", "code/core/src/Body.cpp:calculate_state_derivatives"]}
{"id": "C181", "title": "Thrust against damping: accuracy and stability of the solvers", "statement": "For a body pushed by a constant force X against a damping d u: with rk4 and a time step not longer than the time constant m/d, the error on the speed after the time t is less than |u0 - X/d| (d t/m) (d dt/m)^4 / 100 and the error on the distance less than m/d times this; with euler the error is proportional to the time step. The speed tends to X/d with euler when dt < 2 m/d, and does not get closer to it than at the start when dt >= 2 m/d; with rk4 it tends to X/d without passing it when dt <= 2.5 m/d.", "quantifier": "every mass, thrust, damping, initial speed, attitude, time step, duration", "why_tests_cant": "The input domain is infinite; a test only samples a few literals.", "anchors": ["code/force_models/src/LinearDampingForceModel.cpp:get_force_and_torque", "code/force_models/src/ConstantForceModel.cpp:operator()", "code/executables/src/xdyn.cpp:solve", "code/observers_and_api/src/SimStepper.cpp:step"]}
{"id": "C182", "title": "The controllers and the bodies that do not turn", "statement": "With any list of force models among gravity, dampings, resistance curve and constant force in NED and any list of station-keeping and heading controllers with constant commands, the observations of a simulation are exactly the states that the chosen method gives for the equations of motion, the controllers being the linear functions of position, heading and velocities of their documentation applied at the origin of the axes of the body. When these forces and controllers do not make the body turn, the simulation goes to the end, the attitude never changes, and position and velocity are those of the chosen method for P' = R v, v' = a(P, v); every mode of this motion with rate lambda is multiplied at each step by 1 + z with euler and by 1 + z + z^2/2 + z^3/6 + z^4/24 with rk4, where z = lambda dt. A controller one of whose commands is missing throws, and a simulation with it gives no result.", "quantifier": "every body without blocked states, list of such force models and controllers, parameters and commands, attitude, position, velocity, method whose stages never go back in time, dates, time step and recorded states", "why_tests_cant": "The input domain is infinite; a test only samples a few literals.", "anchors": ["code/force_models/src/SimpleStationKeepingController.cpp:get_force", "code/force_models/src/SimpleHeadingKeepingController.cpp:get_force", "code/core/src/ControllableForceModel.cpp:operator()", "code/core/src/Sim.cpp:sum_of_forces"]}
{"id": "C183", "title": "Station keeping at heading 0: period, damping and stability of the closed loop", "statement": "A body whose axes are those of NED, whose other forces balance each other, ordered to go to (x_co, y_co) with the heading that it has: with rk4 and a time step shorter than the periods over 2 pi, its coordinates are those of damped oscillators with the periods and damping coefficients given to the controller, with an error less than w t (w dt)^4 / 100 times the initial amplitude; it comes as near to the target as one wants and stays there. With euler the energy is multiplied at each step by 1 - 2 ksi z + z^2 (z = 2 pi dt / T): the body converges when z < 2 ksi and goes away without bound when z > 2 ksi, in particular for every time step when there is no damping.", "quantifier": "every body (inertia without coupling of surge and sway with the other motions), controller with damping coefficients in [0, 1), target, position, velocity, time step, duration and recorded states", "why_tests_cant": "The input domain is infinite; a test only samples a few literals.", "anchors": ["code/force_models/src/SimpleStationKeepingController.cpp:get_force", "code/core/inc/solver.hpp:quicksolve"]}
{"id": "C184", "title": "The station-keeping controller brings the ship to its target whatever the commanded heading", "statement": "A body ordered to go to (x_co, y_co) and to keep the heading psi that it has comes to this position when the damping coefficient of the controller is positive and the time step small enough, whatever psi.", "quantifier": "every heading, damping coefficient, period, position, velocity", "why_tests_cant": "The input domain is infinite; a test only samples a few literals.", "anchors": ["code/force_models/src/SimpleStationKeepingController.cpp:get_force (delta_x and delta_y in NED, forces in the axes of the body)"]}
{"id": "C185", "title": "A simulation cut into co-simulation requests", "statement": "Running a simulation through the co-simulation server by several successive requests, each starting from the states of the previous answer, gives the same dates and states as one simulation with the same solver and time step, whatever the durations of the requests and however much of the past the client sends (for simulations that use no past).", "quantifier": "every body whose force models use no past, every solver with constant step, every sequence of durations and of truncations of the past, every initial state", "why_tests_cant": "The input domain is infinite; a test only samples a few literals.", "anchors": ["code/observers_and_api/src/SimStepper.cpp: SimStepper::step", "code/observers_and_api/src/XdynForCS.cpp: SimServer::play_one_step", "code/observers_and_api/src/SimServerInputs.cpp: SimServerInputs", "code/core/src/Sim.cpp: normalize_quaternions"]}
{"id": "C186", "title": "A body that spins", "statement": "A body without translation whose forces balance and that turns at a constant rate about a fixed axis of the body keeps its position and its rate of turn exactly, and at each time step its observed attitude turns about that axis by rate times step: with an error of the third order in that angle with `euler` (which always turns less than the exact angle, and less than half a turn), and of the fifth order with `rk4`, for every number of steps.", "quantifier": "every body, axis, rate, attitude, start and end dates, time step and number of steps", "why_tests_cant": "The input domain is infinite; a test only samples a few literals.", "anchors": ["code/core/src/BodyStates.cpp", "code/core/src/Body.cpp: calculate_state_derivatives", "code/core/src/Sim.cpp: normalize_quaternions"]}
{"id": "C187", "title": "A body on linear hydrostatics heaves like a damped spring", "statement": "Let a body float upright with the 'linear hydrostatics' force model and any of the simple force models (gravity, linear damping...), in a sea whose surface is level but may rise and fall with time. With roll and pitch at the equilibrium of the file, and inertia and stiffness that do not couple heave with roll and pitch, the simulation goes to the end, the body never turns, and its motion is what the chosen method gives for m w' = W - d w - K (z - sea level - z_eq). In still water with damping below critical, rk4 with sqrt(K/m) dt <= 1 follows the oscillation of pulsation sqrt(K/m) and damping d/(2 sqrt(K m)) about sea level + z_eq + W/K to fourth order in the time step, and the body settles there as near as one wants (so, with gravity in the list, mg/K below the equilibrium of the file); the energy is multiplied at each step by a factor known exactly, which with euler exceeds one when sqrt(K/m) dt > d/sqrt(K m): then the body jumps out of the water whatever the duration.", "quantifier": "All bodies, force-model lists, stiffnesses, sea levels as functions of time, initial positions and velocities, recorded pasts, dates, time steps and durations; euler, rk4 and (for the first part) every explicit method", "why_tests_cant": "The input domain is infinite; a test only samples a few literals.", "anchors": ["code/force_models/src/LinearHydrostaticForceModel.cpp: LinearHydrostaticForceModel", "code/core/src/Sim.cpp: Sim", "code/core/src/BodyStates.cpp: BodyStates"]}
{"id": "C188", "title": "Work and energy", "statement": "Along every motion that satisfies the equations that are integrated, the kinetic energy of the body (with its added mass) varies by the power of the force models and controllers: Coriolis and centripetal forces do no work. With gravity counted as -m g z, the mechanical energy varies by the power of the other forces; it is constant with gravity only and never increases when the other forces never bring energy (linear damping with a positive semi-definite matrix, resistance that opposes the motion). The solver euler adds, at each step, the kinetic energy of the velocity gained in the step: the kinetic energy of a body without any force never decreases in a simulation with euler, and grows whenever its velocities change.", "quantifier": "every symmetric inertia with added mass, every inertia of the body, list of force models among gravity, linear and quadratic damping, resistance curve and constant force, list of controllers, motion, and for euler every simulation", "why_tests_cant": "The input domain is infinite; a test only samples a few literals.", "anchors": ["code/core/src/Sim.cpp: Sim::sum_of_forces", "code/core/src/Body.cpp: Body::calculate_state_derivatives", "code/force_models/src/GravityForceModel.cpp: GravityForceModel::operator()"]}
{"id": "C189", "title": "Momentum", "statement": "Along every motion that satisfies the equations that are integrated, for a body without added mass, the momentum in NED varies by the sum of the forces of the force models turned into NED, and the angular momentum about the origin of NED by the sum of their torques about this point; both are constant without forces. With added mass, the momentum also varies by the vector product of the rate of turn by the momentum of the added mass, whose Coriolis and centripetal forces are not computed.", "quantifier": "every inertia, list of force models and controllers, motion", "why_tests_cant": "The input domain is infinite; a test only samples a few literals.", "anchors": ["code/core/src/Sim.cpp: Sim::sum_of_forces", "code/core/src/Body.cpp: Body::calculate_state_derivatives"]}
{"id": "C190", "title": "A body that lies on a plane sea", "statement": "With 'linear hydrostatics', the wave heights are taken under the four points as they are carried by the body (position, heading, roll and pitch), and the force is minus the stiffness times the differences in depth, roll and pitch with the surface and with the equilibrium, in any waves; on a plane sea the mean depth used is the depth at the body's origin, and a body that is parallel to the sea feels no hydrostatic torque.", "quantifier": "every body, stiffness, position of the four points, attitude, position, sea surface and date", "why_tests_cant": "The input domain is infinite; a test only samples a few literals.", "anchors": ["code/force_models/src/LinearHydrostaticForceModel.cpp: LinearHydrostaticForceModel::get_zH, LinearHydrostaticForceModel::operator(), LinearHydrostaticForceModel::compute_thetabar"]}
{"id": "C191", "title": "The gz program", "statement": "For valid options and a hull that floats, gz writes a title and one line per angle, from -phi_max to phi_max by steps of dphi (in degrees), with the righting lever at the depth of equilibrium for that heel, separated by tabs on the terminal and semicolons in a file; invalid options and bodies denser than water are refused with a message and nothing is written; the exit status tells whether the curve was computed.", "quantifier": "all options, all hulls that float, all command lines", "why_tests_cant": "The input domain is infinite; a test only samples a few literals.", "anchors": ["code/executables/src/gz.cpp: main, invalid, get_gz_data", "code/gz_curves/src/GZCurve.cpp: GZ::Curve::Curve, GZ::Curve::gz"]}
{"id": "C192", "title": "What the HDF5 output holds", "statement": "When the output file is an HDF5 file: each requested number is one dataset, found below /outputs at the address of the variable, with exactly one element per observation, in order, each being the value of the variable at this observation; the wave elevations are four datasets below /outputs/waves whose slice k is the grid of observation k, the element (i,j,k) of z being the elevation at the i-th abscissa and the j-th ordinate; nothing else is created and the run does not fail.", "quantifier": "all lists of requested variables, all addresses, all numbers of observations, all values and grid sizes", "why_tests_cant": "The input domain is infinite; a test only samples a few literals.", "anchors": ["code/observers_and_api/src/Hdf5Observer.cpp: get_serializer, get_initializer", "code/observers_and_api/src/Hdf5WaveObserver.cpp: write_T, write_X, write_Y, write_Z", "code/observers_and_api/src/Hdf5WaveObserverBuilder.cpp: Hdf5WaveObserverBuilder", "code/interface_hdf5/src/h5_tools.cpp: createMissingGroups, createDataSet, split, join", "code/force_models/src/GMForceModel.cpp: extra_observations"]}
{"id": "C193", "title": "The waves of an HDF5 output are those of the simulation", "statement": "When the results are written in HDF5, the directory '/outputs/spectra' holds, for each directional wave spectrum (numbered with at least two digits), five columns (omega, a, gamma, k, phase) from which the elevation formula written beside them, applied to the columns read back, gives exactly the elevation that the simulation computes, at every point and every date; nothing that was in the file is lost.", "quantifier": "every list of wave models (any number of spectra, components, phases), every point and date, every content of the file outside '/outputs/spectra'", "why_tests_cant": "The input domain is infinite; a test only samples a few literals.", "anchors": ["code/observers_and_api/src/Hdf5WaveSpectrumObserver.cpp: hdf5WaveSpectrumObserver", "code/interface_hdf5/src/h5_tools.cpp: H5_Tools::write", "code/core/src/SurfaceElevationFromWaves.cpp: serialize_wave_spectra_before_simulation"]}
{"id": "C194", "title": "The inputs stored in an HDF5 output can be read back", "statement": "In an HDF5 output whose directory '/inputs' is free, the command line, the input file and the hull of each body (whatever the number of bodies, provided their names differ and are not empty and hold no '/') can be read back: reading a hull gives the polygons of its mesh file, each one cut into triangles in a fan from its first point - exactly the same list when they are triangles - and nothing that was in the file is lost. Polygons of at least two points written as such are read back in the same way. A facet with less than two vertices stops the program.", "quantifier": "every command, input file, list of bodies, mesh (any polygons of at least two points), content of the rest of the file", "why_tests_cant": "The input domain is infinite; a test only samples a few literals.", "anchors": ["code/external_file_formats/src/stl_io_hdf5.cpp: writeMeshToHdf5File", "code/external_file_formats/src/stl_io_hdf5.cpp: readMeshFromHdf5File", "code/executables/src/xdyn.cpp: serialize_context_if_necessary"]}
{"id": "C195", "title": "The results do not depend on the origin of the axes nor on the date", "statement": "If the initial position of a body and the set points of its controllers are moved by a vector, and the initial date by a duration, every observed position is moved by this vector, every observed date by this duration, and all the other observed states are unchanged (force models: gravity, linear damping, quadratic damping, resistance curve, constant force in NED; controllers: heading, station keeping).", "quantifier": "every body, list of these force models and controllers, vector, duration, initial state, solver, time step, number of steps", "why_tests_cant": "The input domain is infinite; a test only samples a few literals.", "anchors": ["code/core/src/Body.cpp: Body::calculate_state_derivatives", "code/core/src/Sim.cpp: Sim::dx_dt", "code/force_models/src/SimpleStationKeepingController.cpp"]}
{"id": "C196", "title": "The image of a simulation in the centre plane", "statement": "A simulation of the image of a body in the plane y = 0 (centre of gravity, inertia, force models, initial states) observes the images of the observed states, at the same dates. In particular a symmetric body with symmetric force models that starts in its centre plane never leaves it: no sway, no roll, no yaw.", "quantifier": "every body and its image, list of force models, initial state, solver, time step, number of steps", "why_tests_cant": "The input domain is infinite; a test only samples a few literals.", "anchors": ["code/core/src/Body.cpp: Body::calculate_state_derivatives", "code/core/src/Sim.cpp: Sim::dx_dt"]}
{"id": "C197", "title": "The results do not depend on the orientation of the axes", "statement": "If the initial position and heading of a body and the forces given in NED are turned about the vertical, the observed positions and attitudes are turned by the same angle and the velocities in the axes of the body are unchanged.", "quantifier": "every body, list of force models, angle, initial state, solver, time step, number of steps", "why_tests_cant": "The input domain is infinite; a test only samples a few literals.", "anchors": ["code/core/src/Body.cpp: Body::calculate_state_derivatives", "code/core/src/Sim.cpp: Sim::dx_dt", "code/core/src/BodyStates.cpp: BodyStates::get_rot_from_ned_to_body"]}
{"id": "C198", "title": "Simulations converge to the exact motion", "statement": "Take one body with any list of gravity, linear damping, quadratic damping, resistance curve and NED constant forces (the resistance curve being Lipschitz on each bounded interval), no blocked state and no controller, and an exact motion of it: functions of time whose derivatives are given by Newton's laws. Over any duration there are a constant C and a maximum time step such that every simulation started on the exact states, with any smaller time step, any dates inside the duration, any recorded past, and any explicit Runge-Kutta method whose stages go forward in time and whose weights have the sum 1 (euler and rk4 do), runs to the end and observes states which all differ from the exact ones at that date by at most C times the time step. As a consequence two exact motions with the same initial states are the same.", "quantifier": "every body and inertia, every list of these force models, every exact motion, initial date, duration, time step, number of steps, recorded past and Runge-Kutta method", "why_tests_cant": "The input domain is infinite; a test only samples a few literals.", "anchors": ["code/core/inc/solver.hpp: quicksolve", "code/core/src/Sim.cpp: Sim::dx_dt", "code/executables/src/xdyn.cpp: main"]}
{"id": "C199", "title": "Co-simulations converge wherever they are cut", "statement": "Take one body with any list of gravity, linear damping, quadratic damping, resistance curve and NED constant forces, no blocked state and no controller, and an exact motion of it. Over any duration there are a constant C and a maximum time step such that, whatever the number and the lengths of the co-simulation requests of a client that starts on the exact states and sends at each request the last state it received (with any part of the past), with any smaller time step and any forward Runge-Kutta method whose weights have the sum 1, all the requests are answered, at the dates of one simulation cut into pieces, and all the states of all the answers differ from the exact ones by at most C times the time step: the effect of the cuts (which is not zero, see C185) vanishes with the time step, uniformly in the number of requests.", "quantifier": "every body and inertia, every list of these force models, every exact motion, duration, time step, sequence of requests of any length, past sent by the client, state of the server and Runge-Kutta method", "why_tests_cant": "The input domain is infinite; a test only samples a few literals.", "anchors": ["code/observers_and_api/src/SimStepper.cpp: SimStepper::step", "code/core/src/Sim.cpp: Sim::dx_dt", "code/core/inc/solver.hpp: quicksolve"]}
{"id": "C200", "title": "Simulations with controllers converge to the exact motion", "statement": "Let one body have the usual force models (gravity, damping, constant forces...) and controllers (station keeping, heading keeping) whose commands are given, and let an exact solution of its equations of motion keep its heading between -90 and 90 degrees. Then there are a constant C and a largest time step such that, with any smaller time step dt and any solver whose weights sum to 1 (`euler`, `rk4`...), every state written by the simulation is at most C*dt away from the exact state at the same date; C depends neither on dt nor on the dates. The same holds for every state answered by the co-simulation server, however the client cuts the simulation into requests.", "quantifier": "every body, list of force models and controllers, commands, exact motion, duration, time step small enough, number of steps, way of cutting into requests", "why_tests_cant": "The input domain is infinite; a test only samples a few literals.", "anchors": ["code/force_models/src/SimpleStationKeepingController.cpp: SimpleStationKeepingController::get_force", "code/force_models/src/SimpleHeadingKeepingController.cpp: SimpleHeadingKeepingController::get_force", "code/core/inc/solver.hpp: quicksolve", "code/core/src/Sim.cpp: Sim::dx_dt"]}
{"id": "C201", "title": "The solver rk4 is of the fourth order", "statement": "Let one body have smooth force models (gravity, linear damping, constant forces, a smooth resistance curve; not quadratic damping, which is not smooth) and no controller, and let its equations of motion have an exact solution. Then there are a constant C and a largest time step such that, with the solver `rk4` and any smaller time step dt, every state written by the simulation is at most C*dt^4 away from the exact state at the same date: halving the time step divides the bound on the error by 16.", "quantifier": "every body, list of smooth force models, exact motion, duration, time step small enough, number of steps", "why_tests_cant": "The input domain is infinite; a test only samples a few literals.", "anchors": ["code/executables/src/xdyn.cpp: solve", "code/observers_and_api/src/SimStepper.cpp: SimStepper::step", "code/core/inc/solver.hpp: quicksolve", "code/core/src/Sim.cpp: Sim::dx_dt"]}
{"id": "C202", "title": "Simulations in waves converge to the exact motion", "statement": "Let one body in waves have the force model 'diffraction' (built for that sea from an HDB whose responses are Lipschitz functions of the incidence), together with any of the usual force models (gravity, damping, resistance curve, constant forces in NED) and controllers, and let its equations of motion, in which the wave forces depend on the date, have an exact solution along which the heading stays between -90 and 90 degrees. Then there are a constant C and a largest time step such that, with `euler`, `rk4` or any explicit Runge-Kutta method whose weights have the sum 1 and whose stages are evaluated at the dates that their coefficients say, the simulation with any smaller time step dt goes to the end, and every state that it writes is at most C*dt away from the exact state at the same date.", "quantifier": "every body, sea, tables of responses, list of force models and controllers, exact motion, duration, time step small enough, number of steps, method", "why_tests_cant": "The input domain is infinite; a test only samples a few literals.", "anchors": ["code/force_models/src/DiffractionForceModel.cpp: DiffractionForceModel::operator()", "code/executables/src/xdyn.cpp: solve", "code/observers_and_api/src/SimStepper.cpp: SimStepper::step", "code/core/src/Sim.cpp: Sim::sum_of_forces"]}
{"id": "C203", "title": "The published propeller series", "statement": "For a propeller of the Wageningen B series that turns ahead, with an advance ratio J = (1-w)|u|/(nD) of at most 1.5, the thrust and the torque are (1-t) rho n^2 D^4 Kt and etaR rho n^2 D^5 Kq, where Kt and Kq are the polynomials published for the series (39 and 47 terms, with their exponents of J, P/D, AE/A0 and Z) at this advance ratio; beyond, they keep their values at J = 1.5.", "quantifier": "all numbers of blades, area ratios, pitch ratios, diameters, speeds of the ship and rotation speeds ahead", "why_tests_cant": "The input domain is infinite; a test only samples a few literals.", "anchors": ["code/force_models/src/WageningenControlledForceModel.cpp: Kt, Kq", "code/force_models/src/AbstractWageningen.cpp: get_force"]}
{"id": "C204", "title": "Sums of spectra", "statement": "Adding spectral densities gives, at each frequency, the sum of their values (and refuses a frequency that one of them refuses); the frequencies of the sum are those of its terms, each one once, in increasing order; the sea built from the sum of two spectra has the energy of the two seas. The same for the values and directions of sums of directional spreadings.", "quantifier": "all lists of spectral densities and directional spreadings, frequencies, numbers of frequencies and directional spreadings of the sea", "why_tests_cant": "The input domain is infinite; a test only samples a few literals.", "anchors": ["code/environment_models/src/SumOfWaveSpectralDensities.cpp: SumOfWaveSpectralDensities", "code/environment_models/src/SumOfWaveDirectionalSpreadings.cpp: SumOfWaveDirectionalSpreadings", "code/environment_models/src/discretize.cpp: discretize, flatten"]}
{"id": "C205", "title": "Answer of the gRPC co-simulation server", "statement": "An accepted gRPC co-simulation request (with quaternions or Euler angles) fails exactly as the simulation of its states fails; when the simulation gives states, the status is OK and the answer describes them: row i of every column (thirteen states, Euler angles, dates) comes from the i-th computed state, and the 'last state' is the last one. If the simulation gives no state, the status is INTERNAL. The columns of an answer, used as the next request, are accepted and have the content of the answer. When no force model uses the past, row i has the state that the chosen Runge-Kutta method gives after i steps from the last state of the request (with the date i·dt, because the dates of the request are lost: C18).", "quantifier": "every request, simulator, solver, number of states and sequence of computed states; every memoryless simulation for the last sentence", "why_tests_cant": "The input domain is infinite; a test only samples a few literals.", "anchors": ["code/executables/src/CosimulationServiceImpl.cpp: to_grpc(const std::vector<YamlState>&), step_quaternion, step_euler_321", "code/executables/src/XdynForCS.cpp: play_one_step"]}
{"id": "C206", "title": "Only the resultant of the force models matters", "statement": "Writing the force models (or the controlled ones) of a body in another order, or replacing one of them by several whose wrenches add up to its own (for instance a damping matrix split into two models, a constant force split into two forces), changes nothing to the results: a simulation ends if and only if the other one does, with the same states, histories and sums of forces, whatever the solver; the answers to the co-simulation and model exchange requests are the same, and so are the derivatives of a simulation of several bodies.", "quantifier": "every body, all lists of force models and controlled force models (with or without memory), permutations, splittings, solvers, initial states, histories, commands, durations and steps", "why_tests_cant": "The input domain is infinite; a test only samples a few literals.", "anchors": ["code/core/src/Sim.cpp: sum_of_forces, dx_dt", "code/core/inc/solver.hpp: quicksolve", "code/force_models/src/LinearDampingForceModel.cpp: LinearDampingForceModel", "code/force_models/src/ConstantForceModel.cpp: ConstantForceModel::operator()"]}
{"id": "C207", "title": "Convergence with several bodies", "statement": "Any number of bodies that do not interact, each with its own usual force models (gravity, damping, resistance, constant forces in NED), simulated together from their exact states: the simulation goes to the end, and the states observed for each body are at most C·dt away from its exact motion, with any Runge-Kutta method that goes forward and whose weights have the sum 1 (so euler and rk4), and at most C·dt⁴ away with rk4 and smooth force models; the same C is good for all the bodies and all the time steps.", "quantifier": "every number of bodies, force models, exact motions, durations, time steps small enough, tableaux and initial histories", "why_tests_cant": "The input domain is infinite; a test only samples a few literals.", "anchors": ["code/core/src/Sim.cpp: dx_dt", "code/core/inc/solver.hpp: quicksolve", "code/core/src/Body.cpp: calculate_state_derivatives"]}
{"id": "C208", "title": "The results do not depend on the units", "statement": "Given in other units of length, of time and of mass, the same simulation gives the same results in the new units: positions, velocities, rates of turn and dates are multiplied by the ratios of their units and the attitude is unchanged. It is also what is asked of a simulation at model scale: a model whose lengths, durations and masses are in given ratios with those of the ship does what the ship does (force models: gravity, linear damping, quadratic damping, resistance curve, constant force in NED; controllers; propellers and rudders).", "quantifier": "every ratio of the lengths, durations and masses, body, list of force models, controllers, initial states, dates, time step, Runge-Kutta method; every propeller curve, rudder, speed, rotation and rudder angle", "why_tests_cant": "The input domain is infinite; a test only samples a few literals.", "anchors": ["code/core/src/Sim.cpp: dx_dt", "code/force_models/src/AbstractWageningen.cpp: get_force", "code/force_models/src/RudderForceModel.cpp: get_force", "code/force_models/src/SimpleHeadingKeepingController.cpp: get_force", "code/force_models/src/SimpleStationKeepingController.cpp: get_force"]}
{"id": "C209", "title": "The wave grid of the JSON and websocket outputs", "statement": "A client that reads the 'waves' object of a line of the JSON output or of a message of the websocket output finds in it the numbers of points, the bounds of the 'output' section, and a text which, decoded from base91, gives for each point of the grid, in the documented order, the four bytes of the elevation of the sea surface at that point.", "quantifier": "every 'output' section with at least one point, every position and orientation of its frame, sea, date, and conversion of the elevations to four bytes", "why_tests_cant": "The input domain is infinite; a test only samples a few literals.", "anchors": ["code/observers_and_api/src/DictObserver.cpp: get_serializer", "code/core/src/SurfaceElevationInterface.cpp: get_waves_on_mesh_as_a_grid", "code/core/src/SurfaceElevationBuilder.cpp: make_wave_mesh"]}
{"id": "C210", "title": "Wave heights around moving bodies", "statement": "At each output date the wave heights that are written are those of the sea surface at that date, at the points of the mesh of the 'output' section placed in its frame of reference as the positions and attitudes written at the same date say: a mesh in NED does not move, a mesh in 'NED(b)' follows the body b without turning, a mesh in the frame of b turns with it; the coordinates written beside the heights are those of the points; a frame that does not exist is refused as an invalid input, and a mesh without points writes nothing.", "quantifier": "every list of bodies with distinct names, state vector, mesh, sea surface, date, and state of the simulation when the output is written", "why_tests_cant": "The input domain is infinite; a test only samples a few literals.", "anchors": ["code/core/src/EnvironmentAndFrames.cpp: EnvironmentAndFrames::feed", "code/core/src/SurfaceElevationInterface.cpp: compute_position_in_NED_frame, get_waves_on_mesh, get_waves_on_mesh_as_a_grid", "code/core/src/Sim.cpp: Sim::output", "code/core/src/Body.cpp: Body::update_kinematics"]}
{"id": "C211", "title": "The tables of damping and retardation functions", "statement": "When 'output Br and K' is true, the force model 'radiation damping' writes a text in which a reader finds two tables of fields separated by commas: one line for each angular frequency of the HDB file with the thirty-six damping coefficients of the file at that frequency, in the columns named Br_ij after the axes, and one line for each delay with the thirty-six retardation functions at that delay, in the columns named K_ij; when it is false nothing is written.", "quantifier": "every list of frequencies and delays, damping coefficients, retardation functions, and text of the numbers without commas and ends of line", "why_tests_cant": "The input domain is infinite; a test only samples a few literals.", "anchors": ["code/force_models/src/RadiationDampingForceModel.cpp: CSVWriter, RadiationDampingForceModel::Impl::Impl"]}
{"id": "C212", "title": "The text of a history", "statement": "A history can always be printed: its text is the list of its samples (date and value), from the oldest one to the most recent one; its current date is the one of the last sample, and zero without samples.", "quantifier": "every history of fewer than 2^64 samples and every text of the numbers", "why_tests_cant": "The input domain is infinite; a test only samples a few literals.", "anchors": ["code/hdb_interpolators/src/History.cpp: operator<<, History::get_current_time"]}
{"id": "C213", "title": "A propeller given by its open water tables", "statement": "With the force model 'Kt(J) & Kq(J)', when the advance ratio J = (1-w)|u|/(nD) is one of those of the tables, the thrust is (1-t) rho n^2 D^4 Kt and the torque +/- etaR rho n^2 D^5 Kq (by the sense of rotation) with the tabulated coefficients; between the points the coefficients are interpolated; an advance ratio beyond the bounds of the tables is refused by a numerical error; a propeller that does not turn gives no force.", "quantifier": "every table with increasing advance ratios, every propeller, speed and rotation, and every interpolation that goes through the points", "why_tests_cant": "The input domain is infinite; a test only samples a few literals.", "anchors": ["code/force_models/src/KtKqForceModel.cpp: KtKqForceModel::get_Kt, KtKqForceModel::get_Kq", "code/force_models/src/AbstractWageningen.cpp: AbstractWageningen::advance_ratio, AbstractWageningen::get_force"]}
{"id": "C214", "title": "Where a controlled force acts", "statement": "At each evaluation of the forces in states x, a controlled force does the work of its force and torque taken in the axes of its own frame and applied at the origin of its own frame, both carried, as the states x say, by the frame in which its position is given: a force given in NED keeps its point and direction, one given in the frame of a body follows and turns with it, one given in 'NED(b)' follows it without turning, one given in the frame of a force model that comes before follows that frame. A position given in a frame that does not exist stops the evaluation with an error.", "quantifier": "every list of bodies, states, position and attitude of the frame of the force, force and torque", "why_tests_cant": "The input domain is infinite; a test only samples a few literals.", "anchors": ["code/core/src/ControllableForceModel.cpp: ControllableForceModel::ControllableForceModel, ControllableForceModel::operator()", "code/core/src/yaml2eigen.cpp: make_transform", "code/core/src/Sim.cpp: Sim::dx_dt"]}
{"id": "C215", "title": "A body thrown with a spin", "statement": "A rigid body whose only force model is gravity, without added mass, thrown from any position at any velocity and attitude while it spins at any rate about one of its principal axes of inertia, flies along the parabola of a point mass and turns uniformly: whatever the solver and for small enough steps, every line of the results is at most a constant times the time step away from the parabola, the uniform rotation and the velocity in the turned axes (the fourth power of the time step with rk4), even when it tumbles through attitudes where Euler angles are singular.", "quantifier": "all masses, inertias with a principal axis, positions, velocities, attitudes, rates of turn, accelerations of gravity, durations and small enough steps, and all Runge-Kutta methods that go forward", "why_tests_cant": "The input domain is infinite; a test only samples a few literals.", "anchors": ["code/core/src/Body.cpp: Body::calculate_state_derivatives", "code/core/src/Sim.cpp: Sim::dx_dt", "code/force_models/src/GravityForceModel.cpp: GravityForceModel::model_name"]}
{"id": "C216", "title": "Energy and momentum in the results of a simulation", "statement": "In the results of a simulation of a body that only feels gravity, the mechanical energy computed from each line is the initial one up to a constant times the time step (its fourth power with rk4); without any force nor added mass, the momentum and the angular momentum computed from each line in the NED frame are the initial ones up to a constant times the time step. The only condition is that the equations of motion have a solution over the simulated time; for a rigid body spinning about a principal axis it is the flight of C215 and there is no condition.", "quantifier": "all inertias, initial states, durations, small enough steps and Runge-Kutta methods that go forward", "why_tests_cant": "The input domain is infinite; a test only samples a few literals.", "anchors": ["code/core/src/Body.cpp: Body::calculate_state_derivatives", "code/core/src/Sim.cpp: Sim::dx_dt", "code/core/src/BodyStates.cpp"]}
{"id": "C217", "title": "The quaternion converter", "statement": "quat2eul, given the four components of a quaternion, writes the Euler angles of its rotation in degrees, the same for a quaternion and its opposite; a wrong number of arguments is refused.", "quantifier": "all command lines, all rotations whose Euler angles are in the usual ranges", "why_tests_cant": "The input domain is infinite; a test only samples a few literals.", "anchors": ["code/executables/src/convert_quaternion_to_euler.cpp: main", "code/executables/src/convert_quaternion_to_euler.cpp: convert"]}
{"id": "C218", "title": "The choice of the solver and of the time step does not change the results, in the limit", "statement": "A body with the usual force models and no controller, simulated twice from the same states with two solvers (for instance euler and rk4) and two time steps: both simulations succeed and, at the dates that both write, all their states differ by at most C (dt1 + dt2), where C depends neither on the time steps nor on the dates.", "quantifier": "every body, list of usual force models, pair of explicit Runge-Kutta methods, pair of small enough time steps, number of steps and duration, when the equations have an exact solution", "why_tests_cant": "The input domain is infinite; a test only samples a few literals.", "anchors": ["code/core/inc/solver.hpp: quicksolve", "code/core/src/Sim.cpp: Sim::dx_dt", "code/observers_and_api/inc/simulator_api.hpp: simulate"]}
{"id": "C219", "title": "A longer simulation only adds lines", "statement": "If a simulation until a date succeeds, then the simulation until an earlier date from the same states succeeds, and all the lines that it writes are the beginning of those that the longer one writes; if the shorter simulation stops with an error then the longer one stops with the same error.", "quantifier": "every system, initial states, time step, pair of end dates (even if they are not multiples of the time step)", "why_tests_cant": "The input domain is infinite; a test only samples a few literals.", "anchors": ["code/core/inc/solver.hpp: quicksolve"]}
