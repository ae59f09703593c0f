#!/usr/bin/env python3
"""Regenerates /verif/properties.jsonl (one JSON object per line)."""
import json, os
P = []
def p(title, statement, quantifier, why, anchors):
    P.append(dict(id="C%02d" % (len(P)+1), title=title, statement=statement,
                  quantifier=quantifier, why_tests_cant=why, anchors=anchors))

INF = "The input domain is infinite; a test only samples a few literals."

# ---- encodings
p("base91 round trip",
  "base<91>::decode(base<91>::encode(bytes)) returns exactly the original bytes, whatever they are (the wave grids streamed by the JSON/websocket observers can be read back without loss).",
  "every finite sequence of bytes, of any length",
  "The bit queue, the 13/14 bit switch and the trailing partial group depend on the whole prefix of the input: no finite sample covers all queue states and tails.",
  ["code/base91x/base91.hpp: base<91>::encode, base<91>::decode", "code/observers_and_api/src/DictObserver.cpp: get_serializer"])
p("base91 output alphabet",
  "Every character produced by base<91>::encode belongs to the 91-character printable alphabet; in particular it never contains a single quote, a backslash, a blank or a control character, so it can be embedded between single quotes as DictObserver does.",
  "every byte sequence and every position of its encoding", INF,
  ["code/base91x/base91.hpp: base<91>::encode, enctab", "code/observers_and_api/src/DictObserver.cpp"])
p("base91 decoder skips foreign characters",
  "Inserting characters that are not in the base91 alphabet (blanks, line breaks, quotes...) anywhere in a text does not change what base<91>::decode returns.",
  "every text and every set of insertions", INF,
  ["code/base91x/base91.hpp: base<91>::decode, dectab"])
p("base91 size bound",
  "Encoding n bytes yields at most 2*ceil(8n/13) characters and never fewer than ceil(8n*2/14) characters: the overhead promised by base91 (at most 23%).",
  "every byte sequence", INF,
  ["code/base91x/base91.hpp: base<91>::encode"])
p("base64 round trip",
  "base<64>::decode(base<64>::encode(bytes)) returns exactly the original bytes, including inputs whose length is not a multiple of three.",
  "every finite sequence of bytes", INF,
  ["code/base91x/base91.hpp: base<64>::encode, base<64>::decode"])
p("base64 output shape",
  "base<64>::encode yields exactly 4*ceil(n/3) characters, all of them in A-Za-z0-9+/ except for (3 - n mod 3) mod 3 trailing '='.",
  "every finite sequence of bytes", INF,
  ["code/base91x/base91.hpp: base<64>::encode"])
p("binary STL round trip",
  "Reading with read_binary_stl the bytes produced by write_binary_stl gives back the same triangles (same count, same order, same 32-bit coordinates), the header, the normals and the spacer being ignored.",
  "every list of triangles with fewer than 2^32 facets",
  INF, ["code/external_file_formats/src/stl_reader.cpp: read_binary_stl", "code/external_file_formats/src/stl_writer.cpp: write_binary_stl"])

# ---- History
p("History dates strictly increase",
  "After any sequence of calls to record (including rejected ones) on a fresh or reset History, the recorded dates are strictly increasing.",
  "every sequence of (t, value) records and every maximum length Tmax >= 0",
  "It is an invariant over unbounded call histories, in which points are replaced, dropped and re-inserted.",
  ["code/hdb_interpolators/src/History.cpp: History::record, add_value_to_history, shift_oldest_recorded_instant_if_necessary"])
p("History never looks into the past when recording",
  "record(t,v) raises an error exactly when t is strictly before (and not numerically equal to) the latest recorded date; in that case the history is left unchanged, otherwise t becomes the latest date.",
  "every reachable history and every t, v", "Ranges over every reachable history.",
  ["code/hdb_interpolators/src/History.cpp: History::record"])
p("History window length",
  "The duration covered by a History never exceeds its Tmax, and every query with tau > Tmax (by at least the 1E-12 tolerance) returns 0.",
  "every sequence of records, every Tmax >= 0, every tau", "Invariant over unbounded call histories.",
  ["code/hdb_interpolators/src/History.cpp: shift_oldest_recorded_instant_if_necessary, operator()"])
p("History returns the latest value at tau = 0",
  "After a successful record(t,v), h(0) = v and get_current_time() = t.",
  "every sequence of records, every Tmax >= 0", "Invariant over unbounded call histories, including those that just dropped points.",
  ["code/hdb_interpolators/src/History.cpp: History::record, operator()"])
p("History interpolates between neighbouring samples",
  "For 0 <= tau <= duration, h(tau) is the linear interpolation (up to the 1E-12 snapping of dates) between the two recorded samples that surround t - tau; it therefore lies between their values, and equals the recorded value at recorded dates.",
  "every history with strictly increasing dates and every tau",
  "Requires the correctness of the binary search for every length and every position.",
  ["code/hdb_interpolators/src/History.cpp: find_braketing_position, interpolate_value_in_interval, get_value"])
p("History bracketing search",
  "The binary search used by all queries terminates and returns the index of the first recorded date that is not before the requested date (and the number of samples if there is none).",
  "every history with strictly increasing dates, of any length, and every date",
  "Termination and correctness of a while(true) loop for every length.",
  ["code/hdb_interpolators/src/History.cpp: find_braketing_position"])
p("Dropping old samples preserves the remaining window",
  "When record drops samples older than Tmax, the value seen by any query inside the remaining window is unchanged (the point re-created at the beginning of the window is the value interpolated in the samples being dropped).",
  "every history, every new record, every date in the remaining window",
  "The error only shows when one record drops several samples at once, i.e. for particular irregular step histories.",
  ["code/hdb_interpolators/src/History.cpp: shift_oldest_recorded_instant_if_necessary"])
p("History average",
  "average(T) of a history lies between the smallest and the largest recorded value, and is that value if all recorded values are equal; for T >= duration it is the trapezoidal mean over the whole history.",
  "every history with strictly increasing dates and every T >= 0", INF,
  ["code/hdb_interpolators/src/History.cpp: average, integrate, trapeze"])

# ---- states & servers
p("State vector layout",
  "The position of each of the thirteen states of each body in the global state vector is unique: two different (body, state) pairs never share an index, and n bodies fill exactly the indices 0 .. 13n-1.",
  "every number of bodies", "Ranges over every number of bodies.",
  ["code/core/inc/StateMacros.hpp", "code/core/src/State.cpp: get_StateType"])
p("JSON co-simulation inputs",
  "When the states of a (JSON) request are in increasing time order, the inputs built by xdyn have as current date and current state the ones of the last state of the request, the full history ends with that state, and the history given to model exchange ends with the last but one state.",
  "every non-empty list of states with strictly increasing dates and every Tmax", "Ranges over every request.",
  ["code/observers_and_api/src/SimServerInputs.cpp: SimServerInputs::SimServerInputs", "code/observers_and_api/src/HistoryParser.cpp"])
p("gRPC requests carry their dates",
  "A gRPC co-simulation or model-exchange request is equivalent to the JSON request with the same content: in particular the simulation starts at the date of the last state of the request.",
  "every gRPC request whose fields all have the same size", "Ranges over every request: at t=0 the bug is invisible.",
  ["code/executables/src/CosimulationServiceImpl.cpp: from_grpc", "code/executables/src/ModelExchangeServiceImpl.cpp: from_grpc"])
p("gRPC request validation",
  "A gRPC request is refused with INVALID_ARGUMENT if and only if one of its state arrays does not have as many elements as 't'; accepted requests never make the conversion read out of the bounds of an array.",
  "every gRPC request", "Ranges over every combination of sizes.",
  ["code/executables/src/CosimulationServiceImpl.cpp: check_states_size, from_grpc"])
p("gRPC model exchange answers every valid quaternion request",
  "For every accepted request with at least one state, dx_dt_quaternion answers with the derivatives, the date of the last state and the Euler angle rates of the last state, without any out-of-bounds access.",
  "every non-empty request", "Undefined behaviour is not observable by a test that happens to read plausible memory.",
  ["code/executables/src/ModelExchangeServiceImpl.cpp: dx_dt_quaternion, to_grpc, get_euler_derivative", "code/observers_and_api/inc/SimServerInputs.hpp: SimServerInputs(const double)"])

# ---- blocked dof
p("Blocked states follow their prescription",
  "At every instant t, forcing the states sets every blocked state whose definition interval [tmin,tmax] contains t to the interpolated prescription, and changes no other state (nor any state of another body).",
  "every state vector, every set of blocked states, every t", INF,
  ["code/core/src/BlockedDOF.cpp: force_states, state_is_blocked"])
p("A state cannot be blocked twice",
  "Building the blocked degrees of freedom raises an error if the same state is prescribed more than once (in the YAML, in CSV files, or in both), and succeeds otherwise.",
  "every list of prescriptions", INF,
  ["code/core/src/BlockedDOF.cpp: throw_if_already_defined"])
p("The reported blocking force closes the equations of motion",
  "With forced state derivatives, the reported delta F satisfies M dX/dt = F + delta F, and delta F = 0 when no degree of freedom is blocked.",
  "every inertia matrix, every wrench, every state derivative", INF,
  ["code/core/src/BlockedDOF.cpp: get_delta_F"])
p("Observed states are the forced states, for every body",
  "The states written to the outputs are the simulation states in which the blocked states of *every* body have been replaced by their prescription.",
  "every number of bodies and every set of blocked states",
  "Only visible with several bodies having different blocked states.",
  ["code/core/src/Sim.cpp: output", "code/core/src/Body.cpp: block_states_if_necessary"])

# ---- dynamics
p("Quaternion normalisation",
  "After each evaluation the attitude quaternion of every body has unit norm, represents the same rotation as before, and all the other states are unchanged.",
  "every state vector whose quaternions are not zero, every number of bodies", INF,
  ["code/core/src/Sim.cpp: normalize_quaternions, operator()"])
p("Quaternion kinematics preserve the norm",
  "The quaternion derivative computed from the angular velocity is orthogonal to the quaternion (d|q|^2/dt = 0), and the rotation matrix built from a unit quaternion is orthogonal with determinant 1.",
  "every quaternion and every angular velocity", INF,
  ["code/core/src/Body.cpp: calculate_state_derivatives, get_rot_from_ned_to"])
p("Co-simulation steps depend on the request only",
  "The result of a co-simulation step depends only on the request (states, commands, Dt) and on the simulation model, not on the requests processed before by the same server.",
  "every sequence of previous requests and every request",
  "Ranges over every history of previous requests; the leak only shows when a later request omits a command.",
  ["code/observers_and_api/src/SimStepper.cpp: SimStepper::step", "code/core/src/Sim.cpp: reset_history, set_bodystates, set_command_listener"])
p("Wrench transport is invertible and preserves power",
  "The wrench of a controllable force model expressed at G in the body frame has the same power on every rigid-body motion as the wrench expressed at the model's own origin, and transporting it back gives the original wrench.",
  "every rotation matrix, position, force, torque and rigid-body motion", INF,
  ["code/core/src/ControllableForceModel.cpp: operator(), feed"])
p("The observed wrench of a controlled force is the computed one",
  "The wrench written to the outputs for a controlled force, in its own frame, is the wrench computed by the model in that frame.",
  "every body position, centre of gravity and model position",
  "Only visible when the body is not at the origin of the NED frame.",
  ["code/core/src/Sim.cpp: output", "code/core/src/ControllableForceModel.cpp: feed"])
p("Damping dissipates energy",
  "Linear damping with a positive semi-definite matrix and quadratic damping with a non-negative diagonal matrix never give energy to the body.",
  "every damping matrix, every velocity", INF,
  ["code/force_models/src/LinearDampingForceModel.cpp", "code/force_models/src/QuadraticDampingForceModel.cpp"])
p("Gravity is the weight",
  "The gravity force has norm m g, points downwards in the NED frame whatever the attitude, and has no moment about G.",
  "every attitude, every mass, every g", INF,
  ["code/force_models/src/GravityForceModel.cpp"])

# ---- solver
p("Fixed-step simulation grid",
  "A simulation between tstart and tend with step dt observes the system at tstart + i dt, i = 0..N, in order, exactly once each, N being the first i such that tstart + i dt >= tend.",
  "every tstart, tend, dt > 0 and every system", "Ranges over every duration and step; includes termination.",
  ["code/core/inc/solver.hpp: quicksolve", "code/observers_and_api/inc/simulator_api.hpp: simulate"])

# ---- observers
p("Output columns are the requested ones",
  "An observer writes exactly the requested variables, in the requested order, on the title line and on every following line; it raises an error if a requested variable is not produced by the simulation.",
  "every list of requested variables and every set of available variables", INF,
  ["code/core/src/Observer.cpp"])
p("CSV lines have a constant number of fields",
  "Every line of a CSV output, including the title line, has the same number of comma-separated fields, namely the number of requested variables.",
  "every non-empty list of requested variables, including names that contain commas", INF,
  ["code/observers_and_api/src/CsvObserver.cpp", "code/core/src/Observer.cpp"])
p("Every observed value reaches the dictionary outputs once",
  "JSON and websocket outputs contain every observed scalar under the key given by its name 'var(key)': distinct variable names never overwrite each other.",
  "every list of variable names", INF,
  ["code/observers_and_api/src/DictObserver.cpp: extractKeyVarFromString, get_serializer"])
p("JSON key/value lists are well separated",
  "For n entries the dictionary observer writes n key/value pairs separated by n-1 commas.",
  "every map of any size", INF, ["code/observers_and_api/src/DictObserver.cpp: flushMap"])
p("Co-simulation results contain all the steps and all the variables",
  "The results returned by the co-simulation server have one entry per observed step, in order, each with its date, its thirteen states and all the other observed variables as extra observations.",
  "every sequence of observations", INF,
  ["code/observers_and_api/src/EverythingObserver.cpp: observe, add, get_inserter"])

# ---- mesh
p("Edge immersion classification",
  "Each edge is classified exactly once as emerged, immersed, crossing the free surface or lying on it, according to the signs of the immersions of its two ends.",
  "every pair of immersions", INF,
  ["code/mesh/src/MeshIntersector.cpp: get_edge_immersion_status, crosses_free_surface, is_emerged, is_immersed"])
p("Edge / free surface intersection",
  "The point inserted on a crossing edge lies strictly inside the edge and its (linearly interpolated) immersion is zero, whatever the direction in which the edge is traversed; its wave height and position are interpolated at the same place of the edge, and no other node is added.",
  "every pair of immersions of opposite signs, every pair of points", INF,
  ["code/mesh/src/MeshIntersector.cpp: edge_intersection"])
p("Every facet is classified",
  "After each update every facet of the hull is either emerged, or immersed, or split into one emerged and one immersed part; no facet is lost.",
  "every mesh of triangles (the hulls read from STL files) and every set of immersions, after any history of updates", INF,
  ["code/mesh/src/MeshIntersector.cpp: classify_facet, find_intersection_with_free_surface, split_partially_immersed_facet_and_classify"])
p("Splitting a triangle conserves its area vector",
  "The emerged and immersed parts of a split triangle are closed polygons with consistent orientation, on the right side of the free surface, and their area vectors (hence their areas) add up to those of the triangle; a triangle lying entirely in the free surface is put unchanged on both sides.",
  "every triangle, every immersions", INF,
  ["code/mesh/src/MeshIntersector.cpp: split_partially_immersed_facet_and_classify", "code/mesh/src/Mesh.cpp: create_facet_from_edges"])
p("Oriented edge identifiers",
  "An oriented edge identifier encodes its edge index and its direction without loss, reversing twice gives the same identifier, and the first vertex of an oriented edge is the second one of its reverse.",
  "every edge index and direction", INF, ["code/mesh/src/Mesh.cpp", "code/mesh/inc/Mesh.hpp"])
p("Mesh building shares vertices and edges",
  "Building a mesh from a list of facets stores each distinct point once and each distinct edge once, and the vertex list of each facet gives back the points of the facet in order.",
  "every list of facets", INF, ["code/mesh/src/MeshBuilder.cpp"])
p("Volume of a closed polyhedron does not depend on the origin",
  "The volume computed as a sum over facets of area * (normal . point) / 3 of a closed surface does not depend on the position of the frame, and is additive.",
  "every closed list of triangles, every translation", INF, ["code/mesh/src/MeshIntersector.cpp: facet_volume, volume"])

# ---- waves
p("Spectrum flattening keeps the energy",
  "The flattened spectrum has n_omega * n_psi components, and the sum of a^2/2 is the (trapezoidal) double integral of the spectral density; each component keeps its own frequency, direction, wave number and phase.",
  "every discrete spectrum", INF, ["code/environment_models/src/discretize.cpp: flatten"])
p("Spectrum filtering keeps the requested energy",
  "Filtering keeps the most energetic components, at least the requested fraction of the energy, and no component could be removed; kept components are unchanged.",
  "every flat spectrum and every ratio", INF, ["code/environment_models/src/discretize.cpp: filter"])
p("Frequency discretisation",
  "The angular frequencies used for a continuous spectrum are n increasing values from omega_min to omega_max inclusive; invalid bounds raise an error.",
  "every omega_min, omega_max, n", INF, ["code/environment_models/src/WaveSpectralDensity.cpp: get_angular_frequencies"])
p("Wave phases",
  "A wave model built with a constant phase gives that phase to each of its n_omega * n_psi components.",
  "every discrete spectrum, of any numbers of frequencies and directions", "The error only shows when there are more directions than frequencies.",
  ["code/environment_models/src/WaveModel.cpp: add_constant_phases", "code/environment_models/src/discretize.cpp: flatten"])
p("The configured water depth is used",
  "When a positive water depth is given for a spectrum, the dispersion relation and the pressure attenuation for this depth are used; when no depth (zero) is given the infinite depth ones are used.",
  "every depth", "Only a comparison of results for all depths would show that depth is ignored.",
  ["code/parser_extensions/src/builders.cpp: parse_directional_spectrum"])
p("Wave stretching",
  "With delta-stretching the water column between the wave surface and the stretching depth h is mapped monotonically on the calm water column: the bottom h is fixed, depths below h are unchanged, and the free surface is mapped to delta times the elevation.",
  "every h, delta, elevation and z", INF, ["code/environment_models/src/Stretching.cpp: rescaled_z"])
p("Airy elevation",
  "The free-surface elevation of an Airy model is bounded by the sum of the amplitudes, is the superposition of its components, and the elevation of several wave models is the sum of their elevations.",
  "every spectrum, position, date", INF, ["code/environment_models/src/Airy.cpp: elevation", "code/core/src/SurfaceElevationFromWaves.cpp"])
p("No dynamic pressure above the free surface",
  "The dynamic pressure of a point above the free surface (z < eta) is zero, and below the surface its absolute value is at most rho g sum(a) times the attenuation, the attenuation being in [0,1] and decreasing with depth.",
  "every spectrum, position, date", INF, ["code/environment_models/src/Airy.cpp: dynamic_pressure", "code/environment_models/src/discretize.cpp: dynamic_pressure_factor"])
p("Wave spectra are non-negative",
  "The Bretschneider, Pierson-Moskowitz, JONSWAP (for gamma up to exp(1/0.287)), Dirac spectra and the Cos2s spreading are non-negative.",
  "every parameter and every frequency / direction", INF,
  ["code/environment_models/src/BretschneiderSpectrum.cpp", "code/environment_models/src/JonswapSpectrum.cpp"])
p("Wave output mesh",
  "The wave height mesh has nx*ny points covering [xmin,xmax]x[ymin,ymax] including both ends, in the order expected when the elevations are put back on the grid.",
  "every mesh definition", INF, ["code/core/src/SurfaceElevationBuilder.cpp: make_wave_mesh", "code/core/src/SurfaceElevationInterface.cpp"])

# ---- hdb
p("Change of frame of hydrodynamic matrices",
  "Converting the matrices read from an AQUAPLUS file into the body frame is an involution, preserves symmetry and the quadratic form up to the change of axes.",
  "every 6x6 matrix", INF, ["code/hdb_interpolators/src/HDBParser.cpp: convert_matrices_from_aquaplus"])
p("Wave incidence used by diffraction",
  "Interpolated diffraction RAOs are 2*pi-periodic in the incidence, and with mirroring the RAO for an incidence in (pi, 2 pi) is the one for its symmetric incidence, with the sign changed for sway, roll and yaw.",
  "every incidence", INF, ["code/hdb_interpolators/src/DiffractionInterpolator.cpp"])

# ---- force models
p("Rudder area partition",
  "The rudder areas inside and outside the propeller wake are non-negative and add up to the rudder area.",
  "every rudder and propeller geometry, every wake", INF, ["code/force_models/src/RudderForceModel.cpp: get_Ar"])
p("Wageningen domain",
  "The Wageningen propeller model only accepts parameters within the domain of validity of the series, and evaluates the polynomials only for advance ratios inside [0,1.5].",
  "every parameter set, every advance ratio", INF, ["code/force_models/src/WageningenControlledForceModel.cpp"])
p("Maneuvering expressions: precedence and associativity",
  "An arithmetic expression of a maneuvering model is evaluated with the usual precedence, left-associativity and parentheses: a text written with the documented grammar (sums of products of powers, all operators associating to the left, parentheses, calls, blanks anywhere) has, at every date and in every state, the value of that expression.",
  "every expression, of any depth", INF, ["code/force_models/src/maneuvering_compiler.cpp", "code/force_models/inc/maneuvering_grammar.hpp"])
p("Maneuvering expressions are entirely read",
  "If an expression of a maneuvering model contains anything that cannot be parsed, an error is raised (nothing is silently ignored).",
  "every string", INF, ["code/force_models/src/maneuvering_compiler.cpp: compile"])
p("Maneuvering models get a history long enough",
  "The history length requested by a maneuvering model is at least the largest delay its expressions use.",
  "every expression and every date", INF, ["code/force_models/src/ManeuveringInternal.cpp: FindTmax, get_min, get_max", "code/force_models/src/ManeuveringForceModel.cpp: get_Tmax"])

# ---- configuration
p("Output format from file extension",
  "get_format and get_format_for_wave_observer return the format that corresponds to the extension of the file name, for every name that has a non-empty stem, and raise InvalidInputException for the other extensions.",
  "every file name", "The error only shows for names of four characters.",
  ["code/yaml_parser/src/parse_output.cpp: get_format, get_format_for_wave_observer"])
p("Websocket address",
  "An accepted websocket address is 'ws://' + a non-empty host without '/', ':' or blank + a port in 1..65535, and the host and port of the parsed output are the ones of the address.",
  "every string", INF, ["code/yaml_parser/src/parse_address.cpp: build_YamlOutput_from_WS_URL"])
p("Exactly one wave model",
  "Building a simulation with two understood wave models, or with one that is not understood, raises an error; otherwise the (at most one) wave model of the input is used.",
  "every list of environment models and of parsers", INF, ["code/core/src/SimulatorBuilder.cpp: get_wave"])
p("Force models are all built, in order, or an error is raised",
  "Every force model of the input gives a force acting on its body, in order; a model that no parser understands raises an error.",
  "every list of force models and parsers", INF, ["code/core/src/SimulatorBuilder.cpp: add, forces_from"])
p("History is long enough for every force model",
  "The history length of a body is at least the one requested by each of the forces and controlled forces acting on it.",
  "every set of bodies and forces", INF, ["code/core/src/SimulatorBuilder.cpp: get_max_history_length"])
p("Commands",
  "A command given as a table is interpolated linearly between its dates; a constant command has its value at all dates; the command of one force model never changes the command of another one.",
  "every set of commands with distinct (model, command) names", INF,
  ["code/parser_extensions/src/listeners.cpp", "code/core/src/ControllableForceModel.cpp: get_commands"])

# ---- gz
p("GZ curve abscissae",
  "get_phi returns 2N+1 angles (N = round(phi_max/dphi)), increasing, symmetric, from -phi_max to phi_max; invalid inputs raise an error.",
  "every dphi and phi_max", INF, ["code/gz_curves/src/GZCurve.cpp: get_phi"])
p("GZ equilibrium search",
  "The search of the equilibrium draft terminates, and for a resultant that is continuous and monotonic returns a draft within 1E-10 m of an equilibrium.",
  "every resultant force function and every initial interval", "Termination and convergence for every function.",
  ["code/gz_curves/src/GZCurve.cpp: zeq"])
p("GZ curves are computed at the equilibrium trim",
  "The trim angle used for the GZ curve is the one at which the body is in equilibrium (the result of the Newton-Raphson search).",
  "every hull", "Invisible for hulls that are symmetric fore-aft.",
  ["code/gz_curves/src/GZCurve.cpp: get_Xeq"])

# ---- appended as the model grew
p("Truncated binary STL files",
  "Reading a binary STL file shorter than announced by its header never uses an indeterminate value: it is refused, or the missing facets are not returned.",
  "every byte sequence", INF, ["code/external_file_formats/src/stl_reader.cpp: read_binary_stl"])

p("Quaternion kinematics",
  "The derivatives of the quaternion computed for a body rotating at (p,q,r) are those of a rotation: the matrix built from the quaternion changes at the rate R*[pqr]x.",
  "every quaternion and every rotation speed", INF, ["code/core/src/Body.cpp: calculate_state_derivatives", "code/core/src/BodyStates.cpp: get_rot_from_ned_to"])

p("gRPC model exchange with Euler angles",
  "For every accepted non-empty request, when the derivatives can be computed, dx_dt_euler_321 answers OK with the thirteen derivatives in the documented order and with the Euler rates of the last state of the request.",
  "every request and every state of the server", INF, ["code/executables/src/ModelExchangeServiceImpl.cpp: dx_dt_euler_321, to_grpc, get_euler_derivative"])
p("Euler angle rates",
  "The Euler angle rates returned by the model exchange server are the derivatives of the Euler angles of a body rotating at (p,q,r).",
  "every attitude away from the singularity, every rotation speed", INF, ["code/executables/src/ModelExchangeServiceImpl.cpp: get_euler_derivative"])
p("The solver forces the blocked states of every body",
  "After each step the states that are blocked at that date, for every body, have their prescribed value and all the other states are unchanged.",
  "every number of bodies, every set of prescriptions written in the YAML file", INF, ["code/core/src/Sim.cpp: force_states", "code/core/src/BlockedDOF.cpp: force_states"])

# ---- C76
p("Each JSON line is well formed",
  "Every line of a JSON output file, and every message of a websocket output, is a well formed JSON object.",
  "every list of requested variables and every sequence of observations",
  "The commas depend on flags kept from one line to the next and on which kinds of variables are requested: every combination and every number of lines must be covered.",
  ["code/observers_and_api/src/DictObserver.cpp: flush_after_write, serializeDictMap1, serializeDictMap2", "code/observers_and_api/src/JsonObserver.cpp"])

p("Centre of mass of a closed hull",
  "The centre of mass computed for a closed hull of triangles moves with the hull when the hull is translated, the volume does not change, and for a tetrahedron the volume and centre are those of the tetrahedron.",
  "every closed list of triangles of non-zero volume, every translation", INF, ["code/mesh/src/MeshIntersector.cpp: center_of_mass", "code/mesh/src/CenterOfMass.cpp"])

p("Directional spreading over the whole circle","The directions used for a continuous directional spreading cover the circle, so that the energy of the discrete spectrum is the integral of the spreading over 2*pi.","every number of directions, every spreading",INF,["code/environment_models/src/WaveDirectionalSpreading.cpp: get_directions","code/environment_models/src/discretize.cpp: flatten"])
p("Waves travel at their phase speed","A single wave component travels without deformation at speed omega/k in direction psi, and its elevation at a fixed point is periodic of period 2*pi/omega.","every component, position, date",INF,["code/environment_models/src/Airy.cpp: elevation"])
p("Orbital velocities do not depend on the stretching","Delta-stretching changes the dynamic pressure only: the orbital velocities are the same for all stretching parameters, and are zero above the free surface.","every stretching, spectrum, position, date",INF,["code/environment_models/src/Airy.cpp: orbital_velocity"])
p("Airy velocities and pressure are consistent (infinite depth)","Without stretching, the orbital velocity and dynamic pressure fields given for the points under the surface are incompressible, irrotational and satisfy the linearised momentum equation; at the mean level the dynamic pressure balances the elevation and, with the dispersion relation, the vertical velocity is the one of the surface.","every spectrum, position, date",INF,["code/environment_models/src/Airy.cpp: orbital_velocity, dynamic_pressure"])
p("Airy velocities and pressure are consistent (finite depth)","The same with the finite depth factors, for the points between the surface and the bottom, and the vertical velocity is zero on the bottom.","every spectrum, depth, position, date",INF,["code/environment_models/src/Airy.cpp: orbital_velocity, dynamic_pressure","code/environment_models/src/discretize.cpp: dynamic_pressure_factor_sh"])
p("RAO evaluation","A RAO of module 1 and phase 0 gives the wave elevation; the response is bounded by the sum of module times amplitude; a RAO of the wrong size raises an error.","every spectrum, RAO, position, date",INF,["code/environment_models/src/Airy.cpp: evaluate_rao"])
p("Finite depth wave number","The dispersion relation for a depth h has exactly one positive solution; when accepted (k*h >= pi/10) it lies in the interval searched [k0, 3.5 k0], and the derivatives given to the root search are the right ones.","every frequency and depth",INF,["code/environment_models/src/WaveNumberFunctor.cpp","code/environment_models/src/WaveSpectralDensity.cpp: get_wave_number"])

p("Added mass and damping matrices come from the file","Each line of the added mass and radiation damping matrices used by the simulation is read from a section of the HDB file bearing the name of that line, with the columns in order; a file in which a line is missing is refused.","every HDB file, period and axis",INF,["code/hdb_interpolators/src/HDBParser.cpp: get_matrix, fill"])
p("RAO tables come from the file","The RAO used for a wave period and a direction listed in the HDB file is the one the file gives for this period and this direction, whatever the order of the periods and directions in the file.","every HDB file",INF,["code/hdb_interpolators/src/HDBParser.cpp: get_rao"])
p("Diffraction wrench transport and period check","The diffraction force and moment returned at the point where forces are summed are equivalent to those at the calculation point (same power in every rigid motion); waves whose period is outside the periods of the HDB file by more than 0.01 s are refused, all others are accepted.","every wrench, point and spectrum",INF,["code/force_models/src/DiffractionForceModel.cpp: evaluate, check_all_omegas_are_within_bounds"])
p("Discretization of the retardation functions","The delays at which the retardation functions are computed are the requested number of values, equally spaced from tau min to tau max; the angular frequencies of the radiation damping are 2 pi / T for the periods of the HDB file, in increasing order, and a zero period is refused.","every bound and every number of points (at least two)",INF,["code/hdb_interpolators/src/RadiationDampingBuilder.cpp: build_regular_intervals"])
p("Truncation of the cosine transform","The damping neglected by truncating the cosine transform of the retardation function is below the tolerance for every neglected frequency.","every damping function and frequency range",INF,["code/hdb_interpolators/src/RadiationDampingBuilder.cpp: find_integration_bound"])
p("Radiation damping","The radiation damping force is zero until the velocity history reaches tau min, depends only on the velocities of the last tau max seconds, and takes into account the quadratures (each of the seven documented names gives its own method, any other is refused), the frequency bounds and the calculation point given in the YAML file.","every history, retardation function, quadrature and YAML input",INF,["code/force_models/src/RadiationDampingForceModel.cpp: get_convolution_for_axis, get_wrench"])

p("Rudder force","The rudder force never has a component propelling the ship along the flow (it is minus the drag), has no lift when the rudder is in line with the flow, and is symmetric between port and starboard; the wake reduction factor lies between 0.5 and 1; its moment is that of a force applied at the rudder.","every rudder, rudder angle, flow angle and speed",INF,["code/force_models/src/RudderForceModel.cpp: get_wrench, get_force, get_vs"])
p("Propeller force","A stopped propeller gives no force; the rotation sense changes the sign of the torque only; turning a propeller backwards does not push forward.","every propeller, speed and rotation speed",INF,["code/force_models/src/AbstractWageningen.cpp: get_force, advance_ratio"])
p("Heading and station-keeping controllers","With these controllers the heading (and position) of the ship obey the second order equation whose damping and period are those of the YAML file, and the force pushes the ship towards its target, for every heading.","every inertia matrix, gain, state and target",INF,["code/force_models/src/SimpleHeadingKeepingController.cpp: get_force","code/force_models/src/SimpleStationKeepingController.cpp: get_force"])
p("Linear and quadratic damping models","Linear and quadratic damping with a positive semi-definite matrix never bring energy to the ship; quadratic damping changes sign with the velocity; the resistance acts along the axis of the ship and brakes it when the curve has the sign of the speed.","every positive matrix and velocity",INF,["code/force_models/src/LinearDampingForceModel.cpp","code/force_models/src/QuadraticDampingForceModel.cpp"])
p("Points of application of forces","Controlled forces, constant forces and buoyancy are equivalent, at the point where forces are summed, to the force at their declared point of application (same power in every rigid motion); the weight is m*g downwards in the NED frame for every attitude.","every wrench, frame, point and attitude",INF,["code/core/src/ControllableForceModel.cpp: operator()","code/force_models/src/ConstantForceModel.cpp: operator()","code/force_models/src/HydrostaticForceModel.cpp: operator()","code/force_models/src/GravityForceModel.cpp: operator()"])
p("Linear hydrostatics","The linear hydrostatic force is zero at the equilibrium in calm water, linear in the deviations from it, does not change when ship and water rise together, and on a plane wave surface the mean angle used is the angle of the surface.","every stiffness matrix, state and wave elevation",INF,["code/force_models/src/LinearHydrostaticForceModel.cpp"])
p("Righting lever","The GZ computed from a hydrostatic force is the horizontal lever arm between the centre of gravity and the centre of buoyancy, whatever the value of the force.","every vertical force and attitude",INF,["code/force_models/src/calculate_gz.cpp"])

p("Default output contains every state of every body","When no output section is given, the default output has exactly 1 + 16 x (number of bodies) columns: the date, then for each body, in the order of the input, its 16 states under the names var(body).","every list of body names and every accepted output name",INF,["code/yaml_parser/src/parse_output.cpp:generate_default_outputter_with_all_states_in_it","code/yaml_parser/src/parse_output.cpp:fill"])

p("Newton-Raphson of the GZ curves","The search never changes the heel angle, returns its starting point when it is already an equilibrium, and returns the exact equilibrium of a linear resultant with a non-singular stiffness (finite differences being exact there).","every starting point, resultant, stiffness matrix, tolerance and number of iterations",INF,["code/gz_curves/src/gz_newton_raphson.cpp:GZ::newton_raphson","code/gz_curves/src/ResultantForceComputer.cpp:GZ::ResultantForceComputer::K"])
p("The draft search interval contains the equilibrium","For every floating body (lighter than water), the interval in which the equilibrium draft is searched contains it: the resultant is downwards at one end and upwards at the other, and no error is raised.","every mesh and every body lighter than water",INF,["code/gz_curves/src/ResultantForceComputer.cpp:GZ::ResultantForceComputer::get_zmin_zmax","code/gz_curves/src/GZCurve.cpp:GZ::Curve::zeq"])

p("Text STL files: round trip","Reading the text that write_stl produces for a mesh of triangles gives back this mesh (for coordinates exactly represented by their printed text), for any number of facets; a facet that is not a triangle is refused with an exception when read back, never truncated; a text without 'endsolid' is always refused; whatever the text, what is accepted is made of triangles and the reader terminates; comments and lines of spaces between the facets are ignored.","every mesh; every text",INF,["code/external_file_formats/src/stl_writer.cpp: write_stl","code/external_file_formats/src/stl_reader.cpp: read_ascii_stl, read_vertex, read_normal, read_stl"])
p("Text and binary STL data are told apart","is_stl_data_binary returns false exactly for the data that begins with 'solid ' or 'SOLID ' after any number of blanks and tabs, and raises only on blank data.","every byte string",INF,["code/external_file_formats/src/stl_reader.cpp: is_stl_data_binary"])

p("The state vector rebuilt from a body's history is its last recorded state","After the states of a body have been recorded at a date, asking for its current state values returns the thirteen values recorded, at their places in the state vector; after a reset the histories are empty.","every state vector, every date, every body index",INF,["code/core/src/BodyStates.cpp: get_current_state_values","code/core/src/Body.cpp: update_body_states, reset_history"])
p("GM and GZ outputs","The GZ output is the lever arm of the righting moment (distance, in the horizontal plane, between the lines of action of weight and buoyancy), the GM output is the slope of GZ with respect to heel, and computing them does not change the simulated motion.","every hydrostatic model, attitude and increment dphi",INF,["code/force_models/src/GMForceModel.cpp","code/force_models/src/calculate_gz.cpp"])
p("Archimedes' principle for the fast hydrostatic model","For every closed hull entirely under a horizontal free surface, the sum of the hydrostatic forces on its facets is vertical, directed upwards, and equal to rho g times the enclosed volume; its horizontal moments are those of the displaced water.","every closed facetted hull, every density, gravity and surface height",INF,["code/force_models/src/FastHydrostaticForceModel.cpp","code/core/src/SurfaceForceModel.cpp","code/mesh/src/mesh_manipulations.cpp: centre_of_gravity"])
p("Application point of the exact hydrostatic model","The point of application computed by the exact hydrostatic model for an immersed facet is its centre of pressure: the force applied there has the moment of the pressure distribution.","every planar immersed facet and every attitude of the body",INF,["code/mesh/src/mesh_manipulations.cpp: exact_application_point, get_inertia_of_polygon_wrt","code/core/src/Body.cpp: update_projection_of_z_in_mesh_frame"])
p("An accepted inertia matrix defines a dynamics","A matrix of inertia accepted when the body is built is symmetric positive definite, so that the accelerations are determined by the forces and kinetic energy is positive; other matrices are rejected.","every pair of six-by-six matrices in the YAML data",INF,["code/core/src/BodyBuilder.cpp: isSymmetricDefinitePositive, add_inertia","code/external_data_structures/src/YamlDynamics6x6Matrix.cpp"])
p("The hull is expressed in the body frame without deformation","Building a body moves every vertex of the mesh to its coordinates in the body frame, turns the normals accordingly, and keeps areas, centres, distances and angles.","every mesh, every position and attitude of the body frame relative to the mesh",INF,["code/core/src/BodyBuilder.cpp: change_mesh_ref_frame"])
p("A closed hull stays closed when cut by the free surface","If every edge of the hull is run once in each direction by its facets, then so are the edges of the immersed part closed by the lid on the free surface.","every mesh built from facets forming a closed hull, every immersion state",INF,["code/mesh/src/MeshIntersector.cpp","code/mesh/src/MeshBuilder.cpp"])

p("Waterline edges are grouped by connectivity",
  "The edges lying on the free surface are dispatched in groups such that each of them is in exactly one group, exactly once, no group is empty, and two edges are in the same group if and only if one can go from one to the other through edges of the free surface having a common node.",
  "every mesh, every set of edges on the free surface; Boost's connected_components is assumed to return the connected components",
  INF, ["code/mesh/src/ClosingFacetComputer.cpp:112-181 get_connected_components, get_edges_per_component, group_connected_edges"])
p("The closing facet of a polygonal waterline is this polygon",
  "When a connected group of edges of the free surface is a simple polygon, whatever the order and the direction in which its edges are stored and whatever the positions of its nodes, exactly one closing facet is created for it and its vertices are all the corners of the polygon, once each, in the order of the contour.",
  "every mesh, every polygon with at least three corners, all edge orders and directions, all positions of the nodes",
  INF, ["code/mesh/src/ClosingFacetComputer.cpp:371-582 next_edge, contour", "code/mesh/src/MeshIntersector.cpp:140-167 build_closing_edge"])
p("Closing facets are oriented outwards",
  "The closing facet of a waterline is run in the direction of its outward normal, and the normal stored in the facet is its unit normal.",
  "every waterline polygon, every attitude of the body",
  INF, ["code/mesh/src/ClosingFacetComputer.cpp:483-549 direct_orientation, flip, contour", "code/mesh/src/MeshIntersector.cpp:140-167 build_closing_edge"])
p("Immersed and emerged volumes",
  "The immersed volume is the volume enclosed by the immersed facets and by the closing facets which are not immersed facets themselves.",
  "every hull with flat facets and every waterline",
  INF, ["code/mesh/src/MeshIntersector.cpp:489-542 facet_volume, volume, immersed_volume, emerged_volume"])

p("Waterline edges","After a mesh has been cut by the free surface, the edges kept as lying on the surface are exactly the sides, of the emerged and immersed facets, whose two ends are on the free surface; they are never reduced to a point.","every triangle mesh and every immersion of its nodes",INF,["code/mesh/src/MeshIntersector.cpp: update_intersection_with_free_surface, split_partially_immersed_facet_and_classify", "code/mesh/src/Mesh.cpp"])
p("Potential energy of the hydrostatic force","The potential energy output for hydrostatics varies as the opposite of the work of the hydrostatic force, for every motion of the body.","every closed hull and motion",INF,["code/force_models/src/FastHydrostaticForceModel.cpp: pe"])
p("Energy and peak of the wave spectra","The Bretschneider and Pierson-Moskowitz spectra have the total energy (Hs/4)^2 and their maximum at the peak pulsation 2*pi/Tp; JONSWAP has its maximum there too, gamma*(1-0.287*ln(gamma)) times that of Bretschneider; a Dirac spectrum with a Dirac spreading gives one regular wave of amplitude Hs/2.","every height, period, peak factor and pulsation",INF,["code/environment_models/src/BretschneiderSpectrum.cpp", "code/environment_models/src/PiersonMoskowitzSpectrum.cpp", "code/environment_models/src/JonswapSpectrum.cpp", "code/environment_models/src/DiracSpectralDensity.cpp", "code/environment_models/src/discretize.cpp: flatten"])
p("Directional spreadings","For an integer exponent the cos2s spreading has integral one over a turn, its maximum in the main direction, is symmetric about it, and vanishes in the opposite direction; the Dirac spreading is zero outside of its direction.","every main direction, integer exponent and direction",INF,["code/environment_models/src/Cos2sDirectionalSpreading.cpp", "code/environment_models/src/DiracDirectionalSpreading.cpp"])
p("Rudder behind a propeller","The parts of the rudder in and outside of the wake of the propeller both oppose the flow in which they are; the wrench given to the simulator is that of the propeller plus the two rudder forces applied at the rudder; when the propeller gives no thrust the rudder behaves as in open water; the thrust used for the wake is that of the propeller.","every rudder, propeller wrench, ship velocity and rudder angle",INF,["code/force_models/src/RudderForceModel.cpp: get_rudder_force, get_force, get_vs, get_Ar, get_fluid_angle"])

p("Sum of forces","The wrench used to move a body has, in every motion of the body, the power of the Coriolis and centripetal forces plus that of every wrench of its force models, wherever it is applied and in whatever known frame it is given; the order in which the force models are given does not matter.","every list of force models, frame, point of application, state and date",INF,["code/core/src/Sim.cpp:145-180 sum_of_forces", "code/core/src/ForceModel.cpp: update", "code/force_models/src/DampingForceModel.cpp:28"])
p("The derivatives are a function of the state","Evaluating the simulation at a state and date gives derivatives, forces and histories which do not depend on the states evaluated before (other than through the recorded history of the body).","every list of bodies, set of force models, state, date and every sequence of earlier evaluations",INF,["code/core/src/Sim.cpp:127-135 dx_dt", "code/core/src/Body.cpp:64-126 update_kinematics, update"])
p("Bodies do not act on each other","In a simulation of several bodies whose force models only use NED and the frames of their own body, the derivatives, forces and history of a body are the same whatever the other bodies and their states.","every list of bodies with different names, every state and date",INF,["code/core/src/Sim.cpp:34-40, 127-180", "code/core/src/Body.cpp:129-161"])

p("At a junction of the waterline, the next edge is chosen by geometry only",
  "When several edges of the free surface meet at a node, the edge by which the closing contour continues depends only on the positions of the nodes: it is the one whose turning angle is extreme, whatever the order and the direction in which the edges are stored.",
  "all sets of edges, nodes and directions of travel", INF, ["code/mesh/src/ClosingFacetComputer.cpp:next_edge", "code/mesh/src/ClosingFacetComputer.cpp:angle_between_edges"])

p("The wave spectra of a distant wave model are the ones it sends","When the wave model of a simulation is a distant gRPC server, the list of directional spectra used by xdyn (amplitudes, directions, frequencies, wave numbers and phases of each spectrum) is the list in the server's response.","all responses: any number of spectra, any number of components, with or without phases",INF,["code/grpc/src/SurfaceElevationFromGRPC.cpp:Impl::directional_spectra"])
p("A failed gRPC call is reported","A call to a distant model which does not end with the status OK stops the simulation with an error: the content of its response is never used; and a call with status OK never raises this error.","all requests, all statuses, all responses",INF,["code/grpc/src/SurfaceElevationFromGRPC.cpp:throw_if_invalid_status","code/grpc/src/GRPCForceModel.cpp:throw_if_invalid_status"])
p("A distant force model gets the wave data it asks for","When a distant force model asks for wave data, it gets the elevations, orbital velocities, dynamic pressures and spectra of the simulation's wave model at the points it asked for, at the date that goes with them in the message, one value per point; without a wave model, the simulation stops with an error.","all wave models, all requests of the distant model, all dates",INF,["code/grpc/src/ToGRPC.cpp:ToGRPC::from_wave_information","code/grpc/src/FromGRPC.cpp:FromGRPC::to_wave_request","code/core/src/SurfaceElevationInterface.cpp"])
p("A distant force model gets consistent state histories","The histories sent to a distant force model are the recorded samples of the last `max_history_length` seconds, all of them, in chronological order: the k-th value of each of the thirteen states was recorded at the k-th date, and the k-th Euler angles are those of the k-th quaternion. With a null history length, the current values at the current date are sent.","all sequences of recorded states, all history lengths",INF,["code/grpc/src/ToGRPC.cpp:ToGRPC::from_state","code/hdb_interpolators/src/History.cpp:History::get_values","code/hdb_interpolators/src/History.cpp:History::get_dates"])
p("The force of a distant model is its answer","The force and torque of a distant gRPC force model are the six numbers of its response, in the order X, Y, Z, K, M, N, to a request containing the states, the commands and, only if the model needs waves, the wave data it asked for at the current position and date; its extra observations are the ones of that response.","all servers, states, commands and dates",INF,["code/grpc/src/GRPCForceModel.cpp:Impl::force","code/grpc/src/FromGRPC.cpp:FromGRPC::to_force"])

p("The values of a distant wave model are its answers","With a distant wave model, the elevations, dynamic pressures and orbital velocities that xdyn uses at a set of points are the values answered by the server for these points and this date, one per point; lists of coordinates of different lengths are rejected.","all servers, all sets of points, all dates",INF,["code/grpc/src/SurfaceElevationFromGRPC.cpp:Impl::elevations","code/grpc/src/SurfaceElevationFromGRPC.cpp:Impl::dynamic_pressures","code/grpc/src/SurfaceElevationFromGRPC.cpp:Impl::orbital_velocities"])

p("The co-simulation response is valid JSON holding every value","The text sent back by the websocket co-simulation server is a JSON array with one object per state, in chronological order, in which each state, date and angle can be read back exactly and every extra observation appears under its name (null when it is not a number).","all lists of states, all values, all names of extra observations",INF,["code/yaml_parser/src/parse_history.cpp:encode_YamlStates"])
p("A co-simulation response can be sent back as the next request","The states of a response of the websocket co-simulation server, used as the `states` of the next request, are decoded to the same dates and states.","all responses with finite states",INF,["code/yaml_parser/src/parse_history.cpp:encode_YamlStates","code/yaml_parser/src/parse_history.cpp:decode_YamlSimServerInputs"])
p("Which JSON requests are accepted, and what they mean","A JSON request is accepted exactly when it is an object with an array `states` of objects having the fourteen numbers t, x, y, z, u, v, w, p, q, r, qr, qi, qj, qk and, if present, a number `Dt` (0 by default) and an object or null `commands` of numbers; its meaning depends on these keys only, not on their order nor on other keys.","all JSON documents",INF,["code/yaml_parser/src/parse_history.cpp:decode_YamlSimServerInputs"])
p("The model exchange response is valid JSON holding the thirteen derivatives","The text sent back by the websocket model exchange server is a JSON object giving each of the thirteen derivatives under its name, exactly.","all derivatives",INF,["code/executables/src/xdyn_for_me.cpp:SimulationMessage::operator()"])
p("Every websocket request gets one readable answer","Each message received by the websocket servers is answered by exactly one message: the result or, if the evaluation fails, a JSON object {\"error\": text} with the text of the error.","all results of an evaluation, all kinds of errors, all error texts",INF,["code/executables/src/xdyn_for_cs.cpp:SimulationMessage::operator()","code/executables/src/report_xdyn_exceptions_to_user.cpp:report_xdyn_exceptions_to_user"])

p("Wave models superpose","At every point and date, the elevation, the dynamic pressure and the orbital velocity of a sea made of several wave models are the sums of those of each model, whatever their order; without wave model (or with 'no waves') there is no pressure, no velocity and a flat surface; position vectors of different sizes raise an error.","all lists of wave models, all points, dates and elevations",INF,["code/core/src/SurfaceElevationFromWaves.cpp: wave_height, dynamic_pressure, orbital_velocity","code/core/src/DefaultSurfaceElevation.cpp","code/core/src/SurfaceElevationInterface.cpp: get_and_check_*"])
p("Each hull is cut by the waves at its own position","For each node of each hull, the immersion used to cut the hull is the depth of the node minus the elevation of the sea at the horizontal position of this node at the current date, in the NED frame, independently of the other bodies and of the previous dates.","all seas, hulls, positions, numbers of bodies and histories of calls",INF,["code/core/src/SurfaceElevationInterface.cpp: update_surface_elevation, compute_position_in_NED_frame","code/core/src/BodyWithSurfaceForces.cpp: update_intersection_with_free_surface"])
p("Froude-Krylov force","The non-linear Froude-Krylov force is the integral on the immersed facets of the pressure of the waves (pressure at the centre of the facet times area and inward normal, moment at G accordingly); it vanishes without waves and out of the water, is bounded by rho g a times the immersed area, and every facet under the surface receives the pressure of the waves.","all hulls, positions, seas and dates",INF,["code/force_models/src/FroudeKrylovForceModel.cpp: get_dF","code/core/src/SurfaceForceModel.cpp: operator()"])
p("Response to several spectra","The response computed from RAO tables in a sea made of several spectra is the sum of the responses to each spectrum with its own table; a missing table or a table of the wrong size never gives a value; the response in still water is zero.","all seas, positions, dates and tables",INF,["code/core/src/SurfaceElevationInterface.cpp: evaluate_rao"])

p("Rotation convention","A 'rotations convention' is used only if it lists the rotation around z first (psi or z), then theta' or y', then phi'' or x'', with at least one angle name; then the angles (phi,theta,psi) of the file mean Rz(psi) Ry(theta) Rx(phi). Anything else (other order, other number of elements, apostrophes missing or misplaced, axis names only) stops the construction of the simulation with an error.","all lists of strings",INF,["code/yaml_parser/src/external_data_structures_parsers.cpp: operator>>(YamlRotation), search_and_replace","code/yaml_parser/src/check_input_yaml.cpp: check_rotations","code/core/src/yaml2eigen.cpp: angle2matrix, match"])
p("Initial states","The simulation starts with thirteen states per body, in the order of the bodies: the position and velocities written in the YAML file, and a quaternion of norm 1 whose rotation is the one of the angles written in the file, whatever these angles.","all numbers of bodies, positions, angles (including half turns and gimbal lock) and velocities",INF,["code/core/src/update_kinematics.cpp: get_initial_states","code/core/src/yaml2eigen.cpp: angle2matrix"])
p("Quaternion of a rotation","Converting a rotation (given by a matrix or by three angles) to a quaternion loses nothing: the quaternion has norm 1 and its rotation matrix is the given one, in each branch of the conversion.","all rotation matrices, all angles",INF,["code/core/src/BodyStates.cpp: convert(EulerAngles, YamlRotation)","code/core/src/update_kinematics.cpp: get_initial_states"])

p("Exit status","The exit status of the executables tells whether the run succeeded: 0 if and only if the help was displayed or the simulation was completed.","all command lines and all behaviours of the simulation",INF,["code/executables/src/xdyn.cpp: main, run","code/executables/src/xdyn_for_cs.cpp: main","code/executables/src/report_xdyn_exceptions_to_user.cpp"])
p("Checks of the command line","A simulation or a server is started only if the command line gives a YAML file, a solver, a positive time step and (servers) a port from 1024 on, and always with the arguments of the command line.","all command lines",INF,["code/executables/src/parse_XdynCommandLineArguments.cpp: invalid","code/executables/src/parse_XdynForCSCommandLineArguments.cpp: invalid","code/executables/src/parse_XdynForMECommandLineArguments.cpp: invalid","code/executables/src/xdyn_for_me.cpp: main"])
p("Choice of the solver","The solver used is the one named on the command line (euler, rk4 or rkck); any other name is an error.","all strings",INF,["code/executables/src/xdyn.cpp: solve","code/observers_and_api/src/SimStepper.cpp: SimStepper::step"])
p("Outputs of the YAML file","Every element of section 'output' of the YAML file gives exactly one observer with its destination and its data, in the same order; a badly written element is an error.","all lists of output elements",INF,["code/yaml_parser/src/parse_output.cpp: parse_output, operator>>","code/observers_and_api/src/ListOfObservers.cpp"])
p("Wave output option","Option -w f writes the wave heights in f unless the main output is an HDF5 file or a websocket, and -o and -w never remove the outputs of the YAML file.","all YAML output sections, bodies, values of -o and -w",INF,["code/executables/src/build_observers_description.cpp"])
p("Environment constants","The water density, viscosity and gravity of a simulation are those of the YAML file, and negative ones are refused.","all triples of numbers",INF,["code/core/src/EnvironmentAndFrames.cpp","code/core/src/SimulatorBuilder.cpp: get_environment"])

p("The sections on waves are read as written, or refused","For every YAML document: the section of model 'waves' is accepted exactly when it has the documented keys, of the documented kinds, and then the discretization, the spectra (in order), the stretching, the depth and the output mesh the simulator gets are those of the document, every quantity converted to the international system with its own unit; the same for each kind of spectral density and of directional spreading and for models 'no waves' and 'grpc'. Reading never has undefined behaviour.","all YAML documents, whatever the conversion of numbers and units",INF,["code/yaml_parser/src/environment_parsers.cpp: parse_waves, operator>>, parse_wave_dirac_spectrum, parse_jonswap, parse_cos2s, parse_default_wave_model"])
p("The sea that is simulated is the one of the file","The free surface has one wave model per element of 'spectra', built from its own spectral density, directional spreading, depth, stretching and seed and from the discretization (number of frequencies, bounds, energy fraction) of the file; a 'dirac' spectrum and spreading give the regular wave of the height, pulsation and direction of the file at every point and date; otherwise every component has the amplitude the densities give it and its own random phase.","all input files with model 'waves', all points and dates",INF,["code/parser_extensions/src/builders.cpp: SurfaceElevationBuilder<SurfaceElevationFromWaves>::try_to_parse, parse_directional_spectrum, parse_wave_model, parse_spectral_density, parse_directional_spreading","code/environment_models/src/discretize.cpp"])
p("The input file is read as written, or refused","For every YAML document: it is accepted as an input file exactly when it has the documented format; the bodies (name, mesh, positions, initial state, mass, inertia, blocked states, force models), the environment constants, the rotation convention and the command sections the simulator gets are then those of the document, in order and in the international system. Reading never has undefined behaviour.","all YAML documents",INF,["code/yaml_parser/src/SimulatorYamlParser.cpp: SimulatorYamlParser::parse","code/yaml_parser/src/external_data_structures_parsers.cpp: operator>>"])
p("The parameters of the force models are read as written, or refused","For every YAML document of a force model (propellers, rudders, resistance, controllers, constant force, radiation damping, diffraction, linear hydrostatics, GM, distant models): it is accepted exactly when it has the documented keys and the parameters of the model are those of the document, in the international system; reading never has undefined behaviour.","all YAML documents",INF,["code/force_models/src: parse of each force model","code/yaml_parser/src/external_data_structures_parsers.cpp"])
p("A 6x6 matrix that is not one is refused","Six rows of six numbers are read as the matrix they are, and any other content of a damping or stiffness matrix is refused with an error.","all YAML documents",INF,["code/yaml_parser/src/external_data_structures_parsers.cpp: operator>>(YamlDynamics6x6Matrix)","code/force_models/src/DampingForceModel.cpp: parse"])
p("The sense of rotation of a propeller is the one of the file","Both documented values of the rotation of a propeller are understood and any other value is refused.","all YAML documents of propellers",INF,["code/force_models/src/AbstractWageningen.cpp: parse"])
p("A malformed output section is refused","For models 'no waves' and 'grpc', a complete section 'output' is read as written, an absent one gives no output, and a malformed one is reported.","all YAML documents",INF,["code/yaml_parser/src/environment_parsers.cpp: parse_default_wave_model, parse_grpc"])
p("The keys of a maneuvering model are its functions","Every key of a maneuvering model but 'commands' and 'reference frame' is kept with the text that follows it, in order; the reference frame, the name and the commands are those of the document; any other document is refused.","all YAML documents of maneuvering models",INF,["code/force_models/src/ManeuveringForceModel.cpp: parse"])
p("The seed is the one of the file","A sea state has the seed of the file: a non-negative integer, or none for 'none'; any other value is refused.","all YAML documents",INF,["code/parser_extensions/src/builders.cpp: WaveModelBuilder<Airy>::try_to_parse"])
p("The commands of the file are those that are applied","A section 'commands' gives, for each element, its name, its dates and the values of every other key, in the international system, or is refused.","all YAML documents",INF,["code/yaml_parser/src/parse_commands.cpp","code/yaml_parser/src/SimulatorYamlParser.cpp: SimulatorYamlParser::parse"])

p("HDB files are read as written","For every HDB file with the format of AQUA+ (string and value keys, vectors, matrices, lists of matrices, lists of matrices with an incidence): every element is found with its name and its numbers, in the order of the file, whatever the blanks around names and numbers, the ends of lines (LF or CR LF) and a possible empty line after a vector or a matrix; a text has one content only.","all texts with the format, of any length; any notation of numbers that is delimited by blanks and ends of lines",INF,["code/external_file_formats/inc/hdb_grammar.hpp: hdb_grammar","code/external_file_formats/src/hdb_to_ast.cpp: hdb::parse"])
p("A malformed HDB file is refused","A text that does not have the format of HDB files is refused, never read in part.","all texts",INF,["code/external_file_formats/src/hdb_to_ast.cpp: hdb::parse"])

p("The force of a maneuvering model is the value of its expressions","At every date and in every state, each component of the force is the value of the expression that follows its key in the input file, where a name stands for the expression of its own key, the command or the constant of that name, and a state function for the state at the asked delay; a component that is neither a key nor a command gives an exception; a definition that refers to itself has no value.","all sets of expressions (of any size and depth of reference), commands, dates, histories of states and arithmetics",INF,["code/force_models/src/ManeuveringForceModel.cpp: get_force, constructor","code/force_models/src/maneuvering_DataSource_builder.cpp"])
p("Every number that is written is found under its own name","At every instant, every number the simulator writes (date, states, wrenches of all force models in each frame, blocked efforts, sums, extra observations) is found in the outputs under its name, not overwritten by another one.","all sets of bodies, force models, names and values",INF,["code/core/src/Sim.cpp: output, feed_sum_of_forces","code/core/src/ForceModel.cpp: feed","code/core/src/ControllableForceModel.cpp: feed","code/core/src/Body.cpp: feed","code/force_models/src: extra_observations"])
p("The wrench of a controlled force written in the NED frame is the one applied to the body","The wrench of a controlled force written in the NED frame is equivalent to the one applied to the body: it has the same power on every rigid motion.","all positions and orientations of the body, wrenches and rigid motions",INF,["code/core/src/ControllableForceModel.cpp: feed","code/core/src/Sim.cpp: output"])

p("The bodies of the simulation are those of the file","A simulation built from an input file contains the bodies of the file, in order; each body has its own index, is built from its own data and its own mesh, keeps enough history for its own force models, is treated as a body with surface forces if and only if one of its own force models is one, and the force models that act on it are exactly those of its own sections, in the order of the file, each constructed with its own parameters by the parser of its own name.","all lists of bodies, all sections, all sets of force models (including distant ones that change the outside world when they are constructed)",INF,["code/core/src/SimulatorBuilder.cpp: SimulatorBuilder::build, get_bodies, get_forces, get_controlled_forces, make_mesh_map","code/core/src/Sim.cpp: Sim::Impl"])
p("A distant force model is given its parameters once","While a simulation is built, each distant force model of the input file receives its parameters exactly once, in the order of the file.","all lists of bodies with any number of distant force models",INF,["code/core/src/SimulatorBuilder.cpp: SimulatorBuilder::build","code/grpc/src/GRPCForceModel.cpp: GRPCForceModel::Impl"])
p("A mesh is accepted if and only if its facets have the same orientation","A closed mesh is accepted by the mesh builder if and only if all its facets are given in the same orientation (all clockwise or all anticlockwise seen from outside), and the orientation found is that of the facets.","all meshes of triangles, any number of which are turned over",INF,["code/mesh/src/mesh_manipulations.cpp: oriented_clockwise, barycenter","code/mesh/src/MeshBuilder.cpp: MeshBuilder"])

p("Diffraction force in a sea","The diffraction model is built if and only if there is a wave model all the periods of which are in the periods of the HDB file up to 0.01 s; then, for every position and heading of the ship and every date, the force is equivalent to the wrench at the calculation point the components of which are the sums, over all the waves of all the spectra, of the RAO interpolated at the period and the incidence (heading minus direction) of the wave, times its amplitude and the sine of its phase at the calculation point minus the phase of the RAO; there is no force in still water.","all seas (any number of spectra and waves), all RAO tables, all positions, headings, dates, calculation points",INF,["code/force_models/src/DiffractionForceModel.cpp: DiffractionForceModel::Impl, evaluate, convert_to_periods","code/core/src/SurfaceElevationFromWaves.cpp: get_wave_directions_for_each_model, get_wave_angular_frequency_for_each_model","code/hdb_interpolators/src/DiffractionInterpolator.cpp"])
p("Port and starboard symmetry of the diffraction force","With the option mirror and RAO tables of a symmetric ship, in the mirror image of the sea a ship in the mirror position with the opposite heading receives the mirror image of the force and of the moment.","all seas, all symmetric RAO tables, all positions and headings (including head and following waves), all dates",INF,["code/force_models/src/DiffractionForceModel.cpp: DiffractionForceModel::Impl::evaluate","code/hdb_interpolators/src/DiffractionInterpolator.cpp: interpolate_module, interpolate_phase"])

p("Buoyancy of the model 'hydrostatic'","For every position of a hull whose immersed facets and waterplane facets enclose a volume, the force of the model 'hydrostatic' is vertical, directed upwards, equal to rho g times the displaced volume and applied at the centroid of that volume, whatever the origin of the body frame; a hull out of the water has no force.","every closed immersed part made of flat facets (any number of vertices), every density, gravity, attitude and centre of gravity",INF,["code/force_models/src/HydrostaticForceModel.cpp: HydrostaticForceModel::operator()","code/mesh/src/MeshIntersector.cpp: center_of_mass, has"])

p("TSV output","In TSV output, the first line gives the names of the requested variables, the second is made of as many dashes as the first has characters, and each following line gives the values of the requested variables at one observed date, in the order of the titles; this holds for every list of requested variables.","every list of requested variables, every sequence of observations, every format of numbers without blanks",INF,["code/observers_and_api/src/TsvObserver.cpp","code/core/src/Observer.cpp"])

p("HDB file, from the text to the simulation","For every text that has the format of HDB files and contains the twelve lines of the added mass and radiation damping tables (same periods for the six lines of a matrix, no zero period): the file is accepted; the added mass of the body is the one of the first period of the file, in the frame of the body; asked for at a period of the file, it is the one of the file; the angular frequencies given to the radiation damping are 2 pi / T from the last period to the first, each with the damping coefficients of its own period.","all texts, contents, tables and numbers of periods",INF,["code/hdb_interpolators/src/HDBParser.cpp: HDBParser::Impl::Impl, get_added_mass, get_radiation_damping_coeff","code/core/src/BodyBuilder.cpp: add_inertia"])
p("HDB files without RAO","A HDB file in which the diffraction (or Froude-Krylov) tables are missing can be used for the added mass and the radiation damping: the RAO can be asked for if and only if the file has the section and the subsection, for each of the four tables separately; otherwise an exception is thrown when they are asked for.","all texts and the four kinds of tables",INF,["code/hdb_interpolators/src/HDBParser.cpp: get_rao, get_diffraction_module_tables, get_froude_krylov_phase_periods"])

p("Bollard pull of the B series","When the ship does not move and the propeller turns, for every accepted number of blades and blade area ratio and every pitch ratio between 0.5 and 1.4, a propeller of the Wageningen B series pushes ahead, with a thrust coefficient of at least 0.17, and its torque coefficient is at least 0.014, with the sign of the documented rotation.","all blades 2 to 7, area ratios, pitch ratios, speeds of rotation, diameters and densities (real numbers)",INF,["code/force_models/src/WageningenControlledForceModel.cpp: Kt, Kq, coefficients","code/force_models/src/AbstractWageningen.cpp: get_force"])
p("Thrust decreases with speed","For a propeller of the Wageningen B series in its domain, at a given speed of rotation and pitch, the thrust does not increase when the ship goes faster.","all parameters in the domain of the series and all pairs of speeds",INF,["code/force_models/src/WageningenControlledForceModel.cpp: Kt, saturate","code/force_models/src/AbstractWageningen.cpp: advance_ratio, get_force"])

p("The documented solvers run to the end","A simulation started with a documented solver (euler, rk4 or rkck) in which no force model, no prescription of blocked states and no normalisation fails goes to the end and gives one observation for each date of the grid.","All simulations, states, dates, time steps, recorded histories and the three documented solvers.",INF,["code/executables/src/xdyn.cpp: solve","code/observers_and_api/src/SimStepper.cpp","code/hdb_interpolators/src/History.cpp: record","code/core/src/Sim.cpp: operator()"])
p("A falling body follows the exact motion","A body subject to gravity only, that does not turn, simulated with rk4: every observed position is on the parabola of the exact motion, the velocities are the exact ones, the attitude does not change and the sum of kinetic and potential energy is constant, whatever the time step; with euler the velocities are exact and the distance fallen is short by g*time*dt/2.","All masses and inertias, initial positions, velocities, attitudes, dates, time steps, durations and recorded histories.",INF,["code/core/src/Sim.cpp: dx_dt, sum_of_forces","code/core/src/Body.cpp: calculate_state_derivatives","code/force_models/src/GravityForceModel.cpp","code/core/inc/solver.hpp: quicksolve"])
p("A body at rest in equilibrium stays at rest","If a body has no velocity and the forces given by its force models at that state sum to zero, all the observed states of the simulation are exactly the initial one, for all durations and time steps.","All sets of force models (controlled or not), positions, attitudes, dates, time steps, numbers of steps, recorded histories and all explicit methods whose stages never go back in time (euler and rk4 among them).",INF,["code/core/src/Sim.cpp: dx_dt, sum_of_forces, output","code/core/src/Body.cpp: calculate_state_derivatives","code/core/inc/solver.hpp: quicksolve"])

p("A floating body in equilibrium does not move","A body without velocity, with the force models gravity and hydrostatic, whose displaced volume has the mass of the body and its centroid on the vertical of the centre of gravity, keeps exactly its position and attitude for the whole simulation.","All hulls (immersed facets and waterplane facets that enclose a volume), attitudes, positions, inertias, densities, dates, time steps, numbers of steps, recorded histories, solvers euler and rk4.",INF,["code/force_models/src/HydrostaticForceModel.cpp","code/force_models/src/GravityForceModel.cpp","code/core/src/Sim.cpp: dx_dt, sum_of_forces","code/mesh/src/MeshIntersector.cpp: center_of_mass"])

p("A body whose velocities are all prescribed moves with these velocities",
  "In a simulation where the six velocities of a body are prescribed and constant during the whole simulation (translation U in the axes of the body, no rotation), whatever the forces, the body is observed with the prescribed velocities, its attitude does not change and its position is the initial one plus the elapsed time multiplied by U in the axes of NED, whatever the velocity written in the initial conditions.",
  "all bodies, force models that can be evaluated, prescribed velocities, initial states without rotation, dates, time steps, recorded histories and consistent explicit methods (euler, rk4), for the solver of the executable xdyn and the one of the co-simulation",
  INF, ["code/core/src/BlockedDOF.cpp:263-305", "code/core/inc/solver.hpp:24-49", "code/executables/src/xdyn.cpp:36-54", "code/core/src/Sim.cpp:112-135,199-237"])

p("Independent bodies move in one simulation as each of them does alone",
  "Take bodies with different names, none of whose force models uses the position of another body. If the simulation of each of them alone goes to the end, then the simulation of all of them together, with the same solver, dates, time step, blocked states, initial states, commands and recorded histories, goes to the end too; at the end the states and the recorded histories of each body are those it has when it is simulated alone, and the states written for each body are at every date exactly those written when that body is simulated alone (for a body with blocked states that is not the last one, the written states are those of C24). In particular any number of falling bodies follow each its own parabola with rk4.",
  "every number of bodies, force models (with memory of the recorded states, with or without commands), explicit solver, dates, time step, initial states and histories",
  INF,["code/core/src/Sim.cpp: Sim::operator(), dx_dt, normalize_quaternions, force_states, output","code/core/inc/solver.hpp: quicksolve","code/core/src/SimulatorBuilder.cpp: bodies numbered in order"])

p("A simulation is the solver applied to the equations of motion",
  "When the force models have no memory (none of them asks for past states) and the forces are a function of the state and of the date, the observations of a simulation are exactly the states that the chosen method (euler: Euler's method, rk4: the classical Runge-Kutta method) gives for the equations of motion, step after step on the grid of dates, with the quaternion normalised in the output; the order in which the histories are recorded, the re-evaluations and what was simulated before do not matter. This holds in particular for every list of force models among gravity, linear damping, quadratic damping, resistance curve and constant force in NED.",
  "every body without blocked states, list of such force models and parameters, initial state, recorded states, start and end dates, time step, method whose stages never go back in time", INF,
  ["code/core/src/Sim.cpp:Sim::operator()", "code/core/inc/solver.hpp:quicksolve", "code/force_models/src/DampingForceModel.cpp:operator()", "code/force_models/src/ResistanceCurveForceModel.cpp:operator()", "code/force_models/src/ConstantForceModel.cpp:operator()", "code/executables/src/xdyn.cpp:solve"])
p("A body pushed straight ahead stays on its course",
  "When the forces on a body that moves along its own axis sum up to a force along this axis without moment, the simulation keeps it on its course with its attitude, whatever the attitude, and its speed and the distance are those of the one-dimensional problem m u' = f(u) solved by the same method; when the forces balance at its speed, the motion is exactly uniform; with euler and a resistance that balances the thrust at the speed u1, the speed increases to u1 without passing it if no step can pass it.",
  "every body, attitude, initial position and speed, list of force models among gravity, dampings, resistance curve and constant forces, time step, dates and recorded states", INF,
  ["code/force_models/src/ResistanceCurveForceModel.cpp:operator()", "code/force_models/src/ConstantForceModel.cpp:operator()", "code/core/src/Body.cpp:calculate_state_derivatives"])
p("Thrust against damping: accuracy and stability of the solvers",
  "For a body pushed by a constant force X against a damping d u: with rk4 and a time step not longer than the time constant m/d, the error on the speed after the time t is less than |u0 - X/d| (d t/m) (d dt/m)^4 / 100 and the error on the distance less than m/d times this; with euler the error is proportional to the time step. The speed tends to X/d with euler when dt < 2 m/d, and does not get closer to it than at the start when dt >= 2 m/d; with rk4 it tends to X/d without passing it when dt <= 2.5 m/d.",
  "every mass, thrust, damping, initial speed, attitude, time step, duration", INF,
  ["code/force_models/src/LinearDampingForceModel.cpp:get_force_and_torque", "code/force_models/src/ConstantForceModel.cpp:operator()", "code/executables/src/xdyn.cpp:solve", "code/observers_and_api/src/SimStepper.cpp:step"])

p("The controllers and the bodies that do not turn",
  "With any list of force models among gravity, dampings, resistance curve and constant force in NED and any list of station-keeping and heading controllers with constant commands, the observations of a simulation are exactly the states that the chosen method gives for the equations of motion, the controllers being the linear functions of position, heading and velocities of their documentation applied at the origin of the axes of the body. When these forces and controllers do not make the body turn, the simulation goes to the end, the attitude never changes, and position and velocity are those of the chosen method for P' = R v, v' = a(P, v); every mode of this motion with rate lambda is multiplied at each step by 1 + z with euler and by 1 + z + z^2/2 + z^3/6 + z^4/24 with rk4, where z = lambda dt. A controller one of whose commands is missing throws, and a simulation with it gives no result.",
  "every body without blocked states, list of such force models and controllers, parameters and commands, attitude, position, velocity, method whose stages never go back in time, dates, time step and recorded states", INF,
  ["code/force_models/src/SimpleStationKeepingController.cpp:get_force", "code/force_models/src/SimpleHeadingKeepingController.cpp:get_force", "code/core/src/ControllableForceModel.cpp:operator()", "code/core/src/Sim.cpp:sum_of_forces"])
p("Station keeping at heading 0: period, damping and stability of the closed loop",
  "A body whose axes are those of NED, whose other forces balance each other, ordered to go to (x_co, y_co) with the heading that it has: with rk4 and a time step shorter than the periods over 2 pi, its coordinates are those of damped oscillators with the periods and damping coefficients given to the controller, with an error less than w t (w dt)^4 / 100 times the initial amplitude; it comes as near to the target as one wants and stays there. With euler the energy is multiplied at each step by 1 - 2 ksi z + z^2 (z = 2 pi dt / T): the body converges when z < 2 ksi and goes away without bound when z > 2 ksi, in particular for every time step when there is no damping.",
  "every body (inertia without coupling of surge and sway with the other motions), controller with damping coefficients in [0, 1), target, position, velocity, time step, duration and recorded states", INF,
  ["code/force_models/src/SimpleStationKeepingController.cpp:get_force", "code/core/inc/solver.hpp:quicksolve"])
p("The station-keeping controller brings the ship to its target whatever the commanded heading",
  "A body ordered to go to (x_co, y_co) and to keep the heading psi that it has comes to this position when the damping coefficient of the controller is positive and the time step small enough, whatever psi.",
  "every heading, damping coefficient, period, position, velocity", INF,
  ["code/force_models/src/SimpleStationKeepingController.cpp:get_force (delta_x and delta_y in NED, forces in the axes of the body)"])

p("A simulation cut into co-simulation requests",
  "Running a simulation through the co-simulation server by several successive requests, each starting from the states of the previous answer, gives the same dates and states as one simulation with the same solver and time step, whatever the durations of the requests and however much of the past the client sends (for simulations that use no past).",
  "every body whose force models use no past, every solver with constant step, every sequence of durations and of truncations of the past, every initial state",INF,
  ["code/observers_and_api/src/SimStepper.cpp: SimStepper::step","code/observers_and_api/src/XdynForCS.cpp: SimServer::play_one_step","code/observers_and_api/src/SimServerInputs.cpp: SimServerInputs","code/core/src/Sim.cpp: normalize_quaternions"])

p("A body that spins",
  "A body without translation whose forces balance and that turns at a constant rate about a fixed axis of the body keeps its position and its rate of turn exactly, and at each time step its observed attitude turns about that axis by rate times step: with an error of the third order in that angle with `euler` (which always turns less than the exact angle, and less than half a turn), and of the fifth order with `rk4`, for every number of steps.",
  "every body, axis, rate, attitude, start and end dates, time step and number of steps",INF,
  ["code/core/src/BodyStates.cpp","code/core/src/Body.cpp: calculate_state_derivatives","code/core/src/Sim.cpp: normalize_quaternions"])

p("A body on linear hydrostatics heaves like a damped spring",
  "Let a body float upright with the 'linear hydrostatics' force model and any of the simple force models (gravity, linear damping...), in a sea whose surface is level but may rise and fall with time. With roll and pitch at the equilibrium of the file, and inertia and stiffness that do not couple heave with roll and pitch, the simulation goes to the end, the body never turns, and its motion is what the chosen method gives for m w' = W - d w - K (z - sea level - z_eq). In still water with damping below critical, rk4 with sqrt(K/m) dt <= 1 follows the oscillation of pulsation sqrt(K/m) and damping d/(2 sqrt(K m)) about sea level + z_eq + W/K to fourth order in the time step, and the body settles there as near as one wants (so, with gravity in the list, mg/K below the equilibrium of the file); the energy is multiplied at each step by a factor known exactly, which with euler exceeds one when sqrt(K/m) dt > d/sqrt(K m): then the body jumps out of the water whatever the duration.",
  "All bodies, force-model lists, stiffnesses, sea levels as functions of time, initial positions and velocities, recorded pasts, dates, time steps and durations; euler, rk4 and (for the first part) every explicit method",
  INF,
  ["code/force_models/src/LinearHydrostaticForceModel.cpp: LinearHydrostaticForceModel", "code/core/src/Sim.cpp: Sim", "code/core/src/BodyStates.cpp: BodyStates"])

p("Work and energy","Along every motion that satisfies the equations that are integrated, the kinetic energy of the body (with its added mass) varies by the power of the force models and controllers: Coriolis and centripetal forces do no work. With gravity counted as -m g z, the mechanical energy varies by the power of the other forces; it is constant with gravity only and never increases when the other forces never bring energy (linear damping with a positive semi-definite matrix, resistance that opposes the motion). The solver euler adds, at each step, the kinetic energy of the velocity gained in the step: the kinetic energy of a body without any force never decreases in a simulation with euler, and grows whenever its velocities change.","every symmetric inertia with added mass, every inertia of the body, list of force models among gravity, linear and quadratic damping, resistance curve and constant force, list of controllers, motion, and for euler every simulation",INF,["code/core/src/Sim.cpp: Sim::sum_of_forces","code/core/src/Body.cpp: Body::calculate_state_derivatives","code/force_models/src/GravityForceModel.cpp: GravityForceModel::operator()"])
p("Momentum","Along every motion that satisfies the equations that are integrated, for a body without added mass, the momentum in NED varies by the sum of the forces of the force models turned into NED, and the angular momentum about the origin of NED by the sum of their torques about this point; both are constant without forces. With added mass, the momentum also varies by the vector product of the rate of turn by the momentum of the added mass, whose Coriolis and centripetal forces are not computed.","every inertia, list of force models and controllers, motion",INF,["code/core/src/Sim.cpp: Sim::sum_of_forces","code/core/src/Body.cpp: Body::calculate_state_derivatives"])

p("A body that lies on a plane sea","With 'linear hydrostatics', the wave heights are taken under the four points as they are carried by the body (position, heading, roll and pitch), and the force is minus the stiffness times the differences in depth, roll and pitch with the surface and with the equilibrium, in any waves; on a plane sea the mean depth used is the depth at the body's origin, and a body that is parallel to the sea feels no hydrostatic torque.","every body, stiffness, position of the four points, attitude, position, sea surface and date",INF,["code/force_models/src/LinearHydrostaticForceModel.cpp: LinearHydrostaticForceModel::get_zH, LinearHydrostaticForceModel::operator(), LinearHydrostaticForceModel::compute_thetabar"])

p("The gz program","For valid options and a hull that floats, gz writes a title and one line per angle, from -phi_max to phi_max by steps of dphi (in degrees), with the righting lever at the depth of equilibrium for that heel, separated by tabs on the terminal and semicolons in a file; invalid options and bodies denser than water are refused with a message and nothing is written; the exit status tells whether the curve was computed.","all options, all hulls that float, all command lines",INF,["code/executables/src/gz.cpp: main, invalid, get_gz_data","code/gz_curves/src/GZCurve.cpp: GZ::Curve::Curve, GZ::Curve::gz"])

p("What the HDF5 output holds",
  "When the output file is an HDF5 file: each requested number is one dataset, found below /outputs at the address of the variable, with exactly one element per observation, in order, each being the value of the variable at this observation; the wave elevations are four datasets below /outputs/waves whose slice k is the grid of observation k, the element (i,j,k) of z being the elevation at the i-th abscissa and the j-th ordinate; nothing else is created and the run does not fail.",
  "all lists of requested variables, all addresses, all numbers of observations, all values and grid sizes",
  INF,["code/observers_and_api/src/Hdf5Observer.cpp: get_serializer, get_initializer","code/observers_and_api/src/Hdf5WaveObserver.cpp: write_T, write_X, write_Y, write_Z","code/observers_and_api/src/Hdf5WaveObserverBuilder.cpp: Hdf5WaveObserverBuilder","code/interface_hdf5/src/h5_tools.cpp: createMissingGroups, createDataSet, split, join","code/force_models/src/GMForceModel.cpp: extra_observations"])

p("The waves of an HDF5 output are those of the simulation","When the results are written in HDF5, the directory '/outputs/spectra' holds, for each directional wave spectrum (numbered with at least two digits), five columns (omega, a, gamma, k, phase) from which the elevation formula written beside them, applied to the columns read back, gives exactly the elevation that the simulation computes, at every point and every date; nothing that was in the file is lost.","every list of wave models (any number of spectra, components, phases), every point and date, every content of the file outside '/outputs/spectra'",INF,["code/observers_and_api/src/Hdf5WaveSpectrumObserver.cpp: hdf5WaveSpectrumObserver","code/interface_hdf5/src/h5_tools.cpp: H5_Tools::write","code/core/src/SurfaceElevationFromWaves.cpp: serialize_wave_spectra_before_simulation"])
p("The inputs stored in an HDF5 output can be read back","In an HDF5 output whose directory '/inputs' is free, the command line, the input file and the hull of each body (whatever the number of bodies, provided their names differ and are not empty and hold no '/') can be read back: reading a hull gives the polygons of its mesh file, each one cut into triangles in a fan from its first point - exactly the same list when they are triangles - and nothing that was in the file is lost. Polygons of at least two points written as such are read back in the same way. A facet with less than two vertices stops the program.","every command, input file, list of bodies, mesh (any polygons of at least two points), content of the rest of the file",INF,["code/external_file_formats/src/stl_io_hdf5.cpp: writeMeshToHdf5File","code/external_file_formats/src/stl_io_hdf5.cpp: readMeshFromHdf5File","code/executables/src/xdyn.cpp: serialize_context_if_necessary"])

p("The results do not depend on the origin of the axes nor on the date",
  "If the initial position of a body and the set points of its controllers are moved by a vector, and the initial date by a duration, every observed position is moved by this vector, every observed date by this duration, and all the other observed states are unchanged (force models: gravity, linear damping, quadratic damping, resistance curve, constant force in NED; controllers: heading, station keeping).",
  "every body, list of these force models and controllers, vector, duration, initial state, solver, time step, number of steps",
  INF,["code/core/src/Body.cpp: Body::calculate_state_derivatives","code/core/src/Sim.cpp: Sim::dx_dt","code/force_models/src/SimpleStationKeepingController.cpp"])
p("The image of a simulation in the centre plane",
  "A simulation of the image of a body in the plane y = 0 (centre of gravity, inertia, force models, initial states) observes the images of the observed states, at the same dates. In particular a symmetric body with symmetric force models that starts in its centre plane never leaves it: no sway, no roll, no yaw.",
  "every body and its image, list of force models, initial state, solver, time step, number of steps",
  INF,["code/core/src/Body.cpp: Body::calculate_state_derivatives","code/core/src/Sim.cpp: Sim::dx_dt"])
p("The results do not depend on the orientation of the axes",
  "If the initial position and heading of a body and the forces given in NED are turned about the vertical, the observed positions and attitudes are turned by the same angle and the velocities in the axes of the body are unchanged.",
  "every body, list of force models, angle, initial state, solver, time step, number of steps",
  INF,["code/core/src/Body.cpp: Body::calculate_state_derivatives","code/core/src/Sim.cpp: Sim::dx_dt","code/core/src/BodyStates.cpp: BodyStates::get_rot_from_ned_to_body"])

p("Simulations converge to the exact motion",
  "Take one body with any list of gravity, linear damping, quadratic damping, resistance curve and NED constant forces (the resistance curve being Lipschitz on each bounded interval), no blocked state and no controller, and an exact motion of it: functions of time whose derivatives are given by Newton's laws. Over any duration there are a constant C and a maximum time step such that every simulation started on the exact states, with any smaller time step, any dates inside the duration, any recorded past, and any explicit Runge-Kutta method whose stages go forward in time and whose weights have the sum 1 (euler and rk4 do), runs to the end and observes states which all differ from the exact ones at that date by at most C times the time step. As a consequence two exact motions with the same initial states are the same.",
  "every body and inertia, every list of these force models, every exact motion, initial date, duration, time step, number of steps, recorded past and Runge-Kutta method",
  INF,
  ["code/core/inc/solver.hpp: quicksolve", "code/core/src/Sim.cpp: Sim::dx_dt", "code/executables/src/xdyn.cpp: main"])

p("Co-simulations converge wherever they are cut",
  "Take one body with any list of gravity, linear damping, quadratic damping, resistance curve and NED constant forces, no blocked state and no controller, and an exact motion of it. Over any duration there are a constant C and a maximum time step such that, whatever the number and the lengths of the co-simulation requests of a client that starts on the exact states and sends at each request the last state it received (with any part of the past), with any smaller time step and any forward Runge-Kutta method whose weights have the sum 1, all the requests are answered, at the dates of one simulation cut into pieces, and all the states of all the answers differ from the exact ones by at most C times the time step: the effect of the cuts (which is not zero, see C185) vanishes with the time step, uniformly in the number of requests.",
  "every body and inertia, every list of these force models, every exact motion, duration, time step, sequence of requests of any length, past sent by the client, state of the server and Runge-Kutta method",
  INF,
  ["code/observers_and_api/src/SimStepper.cpp: SimStepper::step", "code/core/src/Sim.cpp: Sim::dx_dt", "code/core/inc/solver.hpp: quicksolve"])

p("Simulations with controllers converge to the exact motion","Let one body have the usual force models (gravity, damping, constant forces...) and controllers (station keeping, heading keeping) whose commands are given, and let an exact solution of its equations of motion keep its heading between -90 and 90 degrees. Then there are a constant C and a largest time step such that, with any smaller time step dt and any solver whose weights sum to 1 (`euler`, `rk4`...), every state written by the simulation is at most C*dt away from the exact state at the same date; C depends neither on dt nor on the dates. The same holds for every state answered by the co-simulation server, however the client cuts the simulation into requests.","every body, list of force models and controllers, commands, exact motion, duration, time step small enough, number of steps, way of cutting into requests",INF,["code/force_models/src/SimpleStationKeepingController.cpp: SimpleStationKeepingController::get_force","code/force_models/src/SimpleHeadingKeepingController.cpp: SimpleHeadingKeepingController::get_force","code/core/inc/solver.hpp: quicksolve","code/core/src/Sim.cpp: Sim::dx_dt"])

p("The solver rk4 is of the fourth order","Let one body have smooth force models (gravity, linear damping, constant forces, a smooth resistance curve; not quadratic damping, which is not smooth) and no controller, and let its equations of motion have an exact solution. Then there are a constant C and a largest time step such that, with the solver `rk4` and any smaller time step dt, every state written by the simulation is at most C*dt^4 away from the exact state at the same date: halving the time step divides the bound on the error by 16.","every body, list of smooth force models, exact motion, duration, time step small enough, number of steps",INF,["code/executables/src/xdyn.cpp: solve","code/observers_and_api/src/SimStepper.cpp: SimStepper::step","code/core/inc/solver.hpp: quicksolve","code/core/src/Sim.cpp: Sim::dx_dt"])

p("Simulations in waves converge to the exact motion","Let one body in waves have the force model 'diffraction' (built for that sea from an HDB whose responses are Lipschitz functions of the incidence), together with any of the usual force models (gravity, damping, resistance curve, constant forces in NED) and controllers, and let its equations of motion, in which the wave forces depend on the date, have an exact solution along which the heading stays between -90 and 90 degrees. Then there are a constant C and a largest time step such that, with `euler`, `rk4` or any explicit Runge-Kutta method whose weights have the sum 1 and whose stages are evaluated at the dates that their coefficients say, the simulation with any smaller time step dt goes to the end, and every state that it writes is at most C*dt away from the exact state at the same date.","every body, sea, tables of responses, list of force models and controllers, exact motion, duration, time step small enough, number of steps, method",INF,["code/force_models/src/DiffractionForceModel.cpp: DiffractionForceModel::operator()","code/executables/src/xdyn.cpp: solve","code/observers_and_api/src/SimStepper.cpp: SimStepper::step","code/core/src/Sim.cpp: Sim::sum_of_forces"])

p("The published propeller series", "For a propeller of the Wageningen B series that turns ahead, with an advance ratio J = (1-w)|u|/(nD) of at most 1.5, the thrust and the torque are (1-t) rho n^2 D^4 Kt and etaR rho n^2 D^5 Kq, where Kt and Kq are the polynomials published for the series (39 and 47 terms, with their exponents of J, P/D, AE/A0 and Z) at this advance ratio; beyond, they keep their values at J = 1.5.", "all numbers of blades, area ratios, pitch ratios, diameters, speeds of the ship and rotation speeds ahead", INF, ["code/force_models/src/WageningenControlledForceModel.cpp: Kt, Kq", "code/force_models/src/AbstractWageningen.cpp: get_force"])

p("Sums of spectra", "Adding spectral densities gives, at each frequency, the sum of their values (and refuses a frequency that one of them refuses); the frequencies of the sum are those of its terms, each one once, in increasing order; the sea built from the sum of two spectra has the energy of the two seas. The same for the values and directions of sums of directional spreadings.", "all lists of spectral densities and directional spreadings, frequencies, numbers of frequencies and directional spreadings of the sea", INF, ["code/environment_models/src/SumOfWaveSpectralDensities.cpp: SumOfWaveSpectralDensities", "code/environment_models/src/SumOfWaveDirectionalSpreadings.cpp: SumOfWaveDirectionalSpreadings", "code/environment_models/src/discretize.cpp: discretize, flatten"])

p("Answer of the gRPC co-simulation server", "An accepted gRPC co-simulation request (with quaternions or Euler angles) fails exactly as the simulation of its states fails; when the simulation gives states, the status is OK and the answer describes them: row i of every column (thirteen states, Euler angles, dates) comes from the i-th computed state, and the 'last state' is the last one. If the simulation gives no state, the status is INTERNAL. The columns of an answer, used as the next request, are accepted and have the content of the answer. When no force model uses the past, row i has the state that the chosen Runge-Kutta method gives after i steps from the last state of the request (with the date i·dt, because the dates of the request are lost: C18).", "every request, simulator, solver, number of states and sequence of computed states; every memoryless simulation for the last sentence", INF, ["code/executables/src/CosimulationServiceImpl.cpp: to_grpc(const std::vector<YamlState>&), step_quaternion, step_euler_321", "code/executables/src/XdynForCS.cpp: play_one_step"])

p("Only the resultant of the force models matters", "Writing the force models (or the controlled ones) of a body in another order, or replacing one of them by several whose wrenches add up to its own (for instance a damping matrix split into two models, a constant force split into two forces), changes nothing to the results: a simulation ends if and only if the other one does, with the same states, histories and sums of forces, whatever the solver; the answers to the co-simulation and model exchange requests are the same, and so are the derivatives of a simulation of several bodies.", "every body, all lists of force models and controlled force models (with or without memory), permutations, splittings, solvers, initial states, histories, commands, durations and steps", INF, ["code/core/src/Sim.cpp: sum_of_forces, dx_dt", "code/core/inc/solver.hpp: quicksolve", "code/force_models/src/LinearDampingForceModel.cpp: LinearDampingForceModel", "code/force_models/src/ConstantForceModel.cpp: ConstantForceModel::operator()"])

p("Convergence with several bodies", "Any number of bodies that do not interact, each with its own usual force models (gravity, damping, resistance, constant forces in NED), simulated together from their exact states: the simulation goes to the end, and the states observed for each body are at most C·dt away from its exact motion, with any Runge-Kutta method that goes forward and whose weights have the sum 1 (so euler and rk4), and at most C·dt⁴ away with rk4 and smooth force models; the same C is good for all the bodies and all the time steps.", "every number of bodies, force models, exact motions, durations, time steps small enough, tableaux and initial histories", INF, ["code/core/src/Sim.cpp: dx_dt", "code/core/inc/solver.hpp: quicksolve", "code/core/src/Body.cpp: calculate_state_derivatives"])

p("The results do not depend on the units", "Given in other units of length, of time and of mass, the same simulation gives the same results in the new units: positions, velocities, rates of turn and dates are multiplied by the ratios of their units and the attitude is unchanged. It is also what is asked of a simulation at model scale: a model whose lengths, durations and masses are in given ratios with those of the ship does what the ship does (force models: gravity, linear damping, quadratic damping, resistance curve, constant force in NED; controllers; propellers and rudders).", "every ratio of the lengths, durations and masses, body, list of force models, controllers, initial states, dates, time step, Runge-Kutta method; every propeller curve, rudder, speed, rotation and rudder angle", INF, ["code/core/src/Sim.cpp: dx_dt", "code/force_models/src/AbstractWageningen.cpp: get_force", "code/force_models/src/RudderForceModel.cpp: get_force", "code/force_models/src/SimpleHeadingKeepingController.cpp: get_force", "code/force_models/src/SimpleStationKeepingController.cpp: get_force"])

p("The wave grid of the JSON and websocket outputs", "A client that reads the 'waves' object of a line of the JSON output or of a message of the websocket output finds in it the numbers of points, the bounds of the 'output' section, and a text which, decoded from base91, gives for each point of the grid, in the documented order, the four bytes of the elevation of the sea surface at that point.", "every 'output' section with at least one point, every position and orientation of its frame, sea, date, and conversion of the elevations to four bytes", INF, ["code/observers_and_api/src/DictObserver.cpp: get_serializer", "code/core/src/SurfaceElevationInterface.cpp: get_waves_on_mesh_as_a_grid", "code/core/src/SurfaceElevationBuilder.cpp: make_wave_mesh"])

p("Wave heights around moving bodies","At each output date the wave heights that are written are those of the sea surface at that date, at the points of the mesh of the 'output' section placed in its frame of reference as the positions and attitudes written at the same date say: a mesh in NED does not move, a mesh in 'NED(b)' follows the body b without turning, a mesh in the frame of b turns with it; the coordinates written beside the heights are those of the points; a frame that does not exist is refused as an invalid input, and a mesh without points writes nothing.","every list of bodies with distinct names, state vector, mesh, sea surface, date, and state of the simulation when the output is written",INF,["code/core/src/EnvironmentAndFrames.cpp: EnvironmentAndFrames::feed","code/core/src/SurfaceElevationInterface.cpp: compute_position_in_NED_frame, get_waves_on_mesh, get_waves_on_mesh_as_a_grid","code/core/src/Sim.cpp: Sim::output","code/core/src/Body.cpp: Body::update_kinematics"])

p("The tables of damping and retardation functions","When 'output Br and K' is true, the force model 'radiation damping' writes a text in which a reader finds two tables of fields separated by commas: one line for each angular frequency of the HDB file with the thirty-six damping coefficients of the file at that frequency, in the columns named Br_ij after the axes, and one line for each delay with the thirty-six retardation functions at that delay, in the columns named K_ij; when it is false nothing is written.","every list of frequencies and delays, damping coefficients, retardation functions, and text of the numbers without commas and ends of line",INF,["code/force_models/src/RadiationDampingForceModel.cpp: CSVWriter, RadiationDampingForceModel::Impl::Impl"])
p("The text of a history","A history can always be printed: its text is the list of its samples (date and value), from the oldest one to the most recent one; its current date is the one of the last sample, and zero without samples.","every history of fewer than 2^64 samples and every text of the numbers",INF,["code/hdb_interpolators/src/History.cpp: operator<<, History::get_current_time"])

p("A propeller given by its open water tables","With the force model 'Kt(J) & Kq(J)', when the advance ratio J = (1-w)|u|/(nD) is one of those of the tables, the thrust is (1-t) rho n^2 D^4 Kt and the torque +/- etaR rho n^2 D^5 Kq (by the sense of rotation) with the tabulated coefficients; between the points the coefficients are interpolated; an advance ratio beyond the bounds of the tables is refused by a numerical error; a propeller that does not turn gives no force.","every table with increasing advance ratios, every propeller, speed and rotation, and every interpolation that goes through the points",INF,["code/force_models/src/KtKqForceModel.cpp: KtKqForceModel::get_Kt, KtKqForceModel::get_Kq","code/force_models/src/AbstractWageningen.cpp: AbstractWageningen::advance_ratio, AbstractWageningen::get_force"])

p("Where a controlled force acts","At each evaluation of the forces in states x, a controlled force does the work of its force and torque taken in the axes of its own frame and applied at the origin of its own frame, both carried, as the states x say, by the frame in which its position is given: a force given in NED keeps its point and direction, one given in the frame of a body follows and turns with it, one given in 'NED(b)' follows it without turning, one given in the frame of a force model that comes before follows that frame. A position given in a frame that does not exist stops the evaluation with an error.","every list of bodies, states, position and attitude of the frame of the force, force and torque",INF,["code/core/src/ControllableForceModel.cpp: ControllableForceModel::ControllableForceModel, ControllableForceModel::operator()","code/core/src/yaml2eigen.cpp: make_transform","code/core/src/Sim.cpp: Sim::dx_dt"])

p("A body thrown with a spin",
  "A rigid body whose only force model is gravity, without added mass, thrown from any position at any velocity and attitude while it spins at any rate about one of its principal axes of inertia, flies along the parabola of a point mass and turns uniformly: whatever the solver and for small enough steps, every line of the results is at most a constant times the time step away from the parabola, the uniform rotation and the velocity in the turned axes (the fourth power of the time step with rk4), even when it tumbles through attitudes where Euler angles are singular.",
  "all masses, inertias with a principal axis, positions, velocities, attitudes, rates of turn, accelerations of gravity, durations and small enough steps, and all Runge-Kutta methods that go forward",
  INF,["code/core/src/Body.cpp: Body::calculate_state_derivatives","code/core/src/Sim.cpp: Sim::dx_dt","code/force_models/src/GravityForceModel.cpp: GravityForceModel::model_name"])

p("Energy and momentum in the results of a simulation",
  "In the results of a simulation of a body that only feels gravity, the mechanical energy computed from each line is the initial one up to a constant times the time step (its fourth power with rk4); without any force nor added mass, the momentum and the angular momentum computed from each line in the NED frame are the initial ones up to a constant times the time step. The only condition is that the equations of motion have a solution over the simulated time; for a rigid body spinning about a principal axis it is the flight of C215 and there is no condition.",
  "all inertias, initial states, durations, small enough steps and Runge-Kutta methods that go forward",
  INF,["code/core/src/Body.cpp: Body::calculate_state_derivatives","code/core/src/Sim.cpp: Sim::dx_dt","code/core/src/BodyStates.cpp"])

p("The quaternion converter",
  "quat2eul, given the four components of a quaternion, writes the Euler angles of its rotation in degrees, the same for a quaternion and its opposite; a wrong number of arguments is refused.",
  "all command lines, all rotations whose Euler angles are in the usual ranges",
  INF,["code/executables/src/convert_quaternion_to_euler.cpp: main","code/executables/src/convert_quaternion_to_euler.cpp: convert"])

p("The choice of the solver and of the time step does not change the results, in the limit",
  "A body with the usual force models and no controller, simulated twice from the same states with two solvers (for instance euler and rk4) and two time steps: both simulations succeed and, at the dates that both write, all their states differ by at most C (dt1 + dt2), where C depends neither on the time steps nor on the dates.",
  "every body, list of usual force models, pair of explicit Runge-Kutta methods, pair of small enough time steps, number of steps and duration, when the equations have an exact solution",INF,["code/core/inc/solver.hpp: quicksolve","code/core/src/Sim.cpp: Sim::dx_dt","code/observers_and_api/inc/simulator_api.hpp: simulate"])
p("A longer simulation only adds lines",
  "If a simulation until a date succeeds, then the simulation until an earlier date from the same states succeeds, and all the lines that it writes are the beginning of those that the longer one writes; if the shorter simulation stops with an error then the longer one stops with the same error.",
  "every system, initial states, time step, pair of end dates (even if they are not multiples of the time step)",INF,["code/core/inc/solver.hpp: quicksolve"])

with open(os.path.join(os.path.dirname(__file__), "..", "properties.jsonl"), "w") as f:
    for x in P: f.write(json.dumps(x, ensure_ascii=False) + "\n")
print(len(P), "properties")
