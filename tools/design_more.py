t("C119 C120 C121", "`Model/MultiBody`: loop over the bodies, shared frames, sum of the wrenches; force models are parameters", "relational proof: two runs that agree on thirteen values and on some frames stay related; power identities; refutations by concrete evaluations")
t("C122", "`Model/Closing`: angles between edges and choice of the next edge", "arguments of complex numbers modulo 2π; invariant of the search of the extreme; refutations by concrete waterlines")
t("C123 C124 C125 C126 C127 C128","Model/Grpc: the exchanges with distant wave and force models; a server is a function from requests to a status and a response","case analysis of the programs; the index of the phase loop by induction; the dates of histories recorded together by induction over the records (Lemmas/HistoryDates)")
t("C129 C130 C131 C132 C133","Model/JsonApi: texts written by the servers and decoding of requests from the JSON tree; Spec/Json: a recursive descent reader of JSON texts","lemmas of the form `text is read as value whatever follows`, by induction on members and elements; equivalences for the decoder; refutations for NaN, quotes and lost exceptions")
t("C134 C135 C137","Model/SeaState: SurfaceElevationFromWaves, DefaultSurfaceElevation, SurfaceElevationInterface (update, checks, evaluate_rao); frames given by ssc are transforms","loops over models and points computed by induction; sums of lists; memory of the last call threaded through the bodies")
t("C136","Model/SeaState: get_dF of FroudeKrylovForceModel with the loop of SurfaceForceModel","wrench as a sum over facets by induction; bounds by the pressure bound of C52; counterexample with a quadrilateral")
t("C138","Model/Setup: search_and_replace, operator>>(YamlRotation), check_rotations, angle2matrix on lists of characters","inversion of the replacements (a replacement by a character absent of the result does nothing), equivalence with the list of accepted conventions")
t("C139 C140","Model/Setup: get_initial_states, Eigen's Quaternion(Matrix3), BodyStates::convert","the 4x4 matrix of products of components read in a rotation matrix has rank one (cofactors); loop over bodies by induction on the prefix already written")
t("C141 C142 C143","Model/Cli: main of the three executables, invalid, solve; the simulation is an arbitrary function of the arguments that may fail","case analysis of the command lines; refutations for every failing simulation")
t("C144 C145 C146","Model/Cli: parse_output with its partial fills, ListOfObservers, build_observers_description, get_environment","induction on the list of elements; inversion of the error monad")
t("C147 C149 C150 C151 C152 C153 C154 C155 C156","Spec/Yaml, Spec/InputFormat (the documented format, as relations) and Model/Input: every operator>> and parse function, over trees of maps, lists and texts with arbitrary conversions","equivalence 'parser returns r iff the document has the format and describes r', compositionally from iff-lemmas of the combinators; absence of undefined behaviour by a syntactic induction; refutations on concrete documents")
t("C148","Model/SeaBuild: builders.cpp over the real numbers, root search, pow and the random generator being arbitrary functions","composition of the parser equivalences of C147 with the sums of C51 and the spectra of C116; refutation for every two files that differ by the energy fraction")
t("C157 C158","Spec/HdbText (the format, as relations between content and text) and Model/HdbText: the Spirit grammar as a parsing expression grammar with its skipper, over an arbitrary lexer of numbers","per-rule lemmas 'reads what is written whatever follows' and 'fails on the other kinds', repetitions by induction on the elements; refutations: general for any trailing text, and concrete files")
t("C159","Spec/ManeuveringForce (value of a name as an inductive relation) and Model/ManeuveringForce: constructor and get_force with SSC's data source as set signals and modules evaluated on demand","soundness by induction on the nesting bound, completeness by induction on the derivation, on top of the compiler theorems of C59")
t("C160","Model/Outputs: every write of Sim::output with its name, what the observer keeps is the last value of a name","names are cut at parentheses and commas, injectivity of the naming, uniqueness over nested lists; refutations by concrete simulations")
t("C161","Model/Outputs: feedNed","polynomial identity of powers; exact error of the torque; refutation by a concrete body")
t("C162 C163","Spec/Build (sections of a file as inductive relations threading the outside world) and Model/Build: SimulatorBuilder::build and the constructor of Sim, with arbitrary constructors of force models","equivalence of the loops with the relations by induction, maps by key with different names, C66 for the history; refutations by concrete files and, for C163, for every file with a distant model")
t("C164","Model/Orientation: oriented_clockwise and barycenter over the real numbers","the barycentre of the points is strictly inside every facet of a convex mesh (sum of the heights), invariance under permutation, count by induction over any list of turned facets; refutations: general (twelve facets) and two tetrahedra")
t("C165 C166","Model/Diffraction: constructor and evaluate of DiffractionForceModel on top of Model/SeaState (evaluate_rao) and Model/Hdb (interpolation of the RAO)","loops as lists of spectra, C137 for the sum, C87 for the transport; symmetry wave by wave from C56, incidences 0 and pi apart")
t("C167","Model/Buoyancy: MeshIntersector::center_of_mass of a range with its closing facets and flag, HydrostaticForceModel","sum over the fans of flat polygons (volumes of one sign), independence of the origin on closed surfaces (C44, C77), power of the wrench; refutation by a pyramid with rational normals")
t("C168","Model/Tsv: TsvObserver on top of Model/Observer, the length of the title line as state","run of any observer as a list of actions (C33), text and length by induction, words of a line by an independent splitter; refutations: empty list, blank in a name")
t("C169 C170","Model/HdbFile: constructor and accessors of HDBParser on top of Model/HdbText and Model/Hdb; spline of the library as a parameter","C157 for the text, invariant of the loops over sections (lines read so far agree with the table), totality of the loops by induction; texts exist for every table (list_text)")
t("C171 C172","Model/Wageningen: the five arrays of Kt and of Kq as in the source, get_force with the commands","polynomial inequalities on a box for each number of blades: identity with non-negative Bernstein coefficients checked by ring (Lemmas/Wageningen, generated); Simpson's rule, exact for cubics, for the decrease; refutation by evaluation")
t("C173","`Model/Integrators`: explicit Runge-Kutta methods as programs that evaluate the simulation (`Model/Sim`), the three tableaux","invariant on the histories (nothing recorded after the current date) through stages and steps; `Cash-Karp` refuted by following its six evaluations")
t("C174 C175","`Model/Integrators` on `Model/MultiBody`, `Model/Sim`, `Model/Body`: one body from its force models to its observations","induction on stages (any consistent tableau), then on steps; the link with `Sim::dx_dt` of several bodies is `evaluation_is_dxdt`")
t("C176","`Model/Floating`: the force model `hydrostatic` as a force model of a simulation","`buoyancy_partial` (C167) gives force and moment, `body_at_rest_stays` (C175) the motion")
t("C177","`Model/Integrators`: both solver loops (`sscSystem`, `simSystem`) on a body with six blocked states (`Model/BlockedDof`)","induction on stages and steps: the blocked derivatives vanish, the velocities of the state are unchanged by a step; exact positions for both loops, refutation by the distance to the straight line")
t("C178","`Model/Fleet`: a simulation of several bodies driven by a solver (numbering of the bodies, `Sim::operator()`, forced states, observed states)","one evaluation is the juxtaposition of those of the bodies (`dxdt_fleet`, induction on the bodies), then lockstep induction on stages and on the loop; composed with C174 for falling bodies")
t("C179 C180 C181","Model/Mechanical (linear and quadratic damping, resistance curve and constant force as force models of a simulation), on Model/Integrators; specifications in Spec/RungeKutta (the method on a function of states and date) and Spec/Push (forces as functions of the state, equations of motion)","refinement: induction on the stages of the method and on the steps, with the invariant that the histories keep no past and their last value is the current state; then affine embedding of the one-dimensional problem, closed forms by induction, bounds on the exponential")
t("C182 C183 C184","Model/Control (the controllers as controlled force models of a simulation) on Model/Integrators; specifications in Spec/Control","C179 with the controllers; relation between the 13 states and the 6 of a body that does not turn, kept by stages and steps (rk_related); modes of an affine motion by induction on the steps; second-order oscillator as one complex mode, norm of the factors of euler and rk4, error by the exponential; roots of lambda^2 + 2 ksi w lambda + w^2 e^{i psi} for the other headings")
t("C185","Model/Server (inputs of a request, `SimStepper::step`, `play_one_step`) with Model/Integrators; a client that chains requests in Spec/Chain","each request by C179 from the states received; induction on the requests (`chained_requests`), additivity of the runs of the method (`rkRun_add`); counterexample computed from the proved law for a ball that turns")
t("C186","Model/Integrators, Model/Body, normalisation of Model/Sim; rotations in Spec/Spin (Rodrigues' formula)","the quaternions reached are the initial one times those of the powers of a complex number, the stability function of the method at i om dt / 2; polar form of this number (arctan for euler, bound of the exponential series for rk4)")
t("C187","Model/LinearHydrostatics (the force model on the histories and the frames of the simulation, over the law of Model/Forces), Model/MultiBody, Model/Sim","`glides`: any body whose forces make it accelerate without turning, time-dependent accelerations included, is a Runge-Kutta solution of a six-state system (`Memoryless` + `rk_related`). Heave is then a `Mode` of that system, with the oscillator lemmas of C183.")
t("C188 C189","Spec/Push, Spec/Control (equations of motion that C179 and C182 prove to be the ones integrated); energy, momentum, power and motions in Spec/Energy","derivatives along any curve that satisfies the equations (symmetry of the inertia, vector identities, quaternion kinematics of C72); exact expansion of a step of euler, carried to the observations by C179")
t("C190","Model/LinearHydrostatics, Model/Forces; plane seas and the layout of the points stated in Props/PlaneSea","value of the model computed from `Current` histories; rotation matrices of roll and pitch by the double-angle formulas; counterexample for every slope and every distance")
t("C191","Model/GzTool (main of gz, GZ::Curve) over Model/GZ","angles by C68 in radians, converted; equilibrium of each line by C69, the fuel of the searches being the maximum over the lines")
t("C192","Model/Hdf5 (Hdf5Observer, Hdf5WaveObserver, h5_tools; the HDF5 library is a tree of groups and datasets)","invariant on the tree (datasets written so far, groups on the way to them) kept by each initializer and serializer, then the run of an observer (C33)")
t("C193 C194","Model/Hdf5Inputs (Hdf5WaveSpectrumObserver, stl_io_hdf5, inputs written by xdyn.cpp) on Model/Hdf5","list of the datasets to create, pairwise apart, written one after the other (writes_hold); elements read back by the layout in memory; sum of waves by C51, mesh by C43")
t("C195 C196 C197","the simulations of C179 and C182 (Model/Mechanical, Model/Control, Model/Solver); shifted, mirrored and turned states in Spec/Frame","the equations of motion of the images are the images of the equations; Runge-Kutta runs related step by step (`carried`), normalisation included; derivatives for exact motions; counterexample computed for `euler`")
t("C198","the simulations of C179 (Model/Mechanical, Model/Solver, Model/Integrators); exact motions of Spec/Energy, distances in Spec/Converge","the equations are Lipschitz where the states are bounded (closure lemmas); local error of a Runge-Kutta step and of the exact motion against a step of Euler, accumulated by induction on the steps; states limited to a box outside of which no stage goes for small steps")
t("C199","the requests of C185 (Spec/Chain, Model/Server) with the equations of C198","invariant on the distance to the exact motion plus the error on the norm of the quaternion: a step adds a constant times the square of the time step, a normalisation adds nothing")
t("C200","the simulations of C182 and the requests of C185 with controllers (Spec/Control); Spec/Converge (`ReadsHeading`)","a heading law that is Lipschitz everywhere replaces the arctangent where the first axis does not point forward; the proof of C198/C199 redone in a tube round the exact motion, inside which both laws agree (least cosine along a compact interval)")
t("C201","the simulations of C179 with `rk4` (Model/Integrators); Spec/Converge (`Push.Smooth`)","Lemmas/RK4: Taylor expansions of the exact motion with uniform remainders, stages compared with the exact values modulo the fourth power of the step (algebra of big O on a principal filter), stability of a step, induction on the steps; states as vectors of 13 reals")
t("C202","Model/WaveForces (the diffraction model of Model/Diffraction as a force model of a simulation) on Model/MultiBody, Model/Solver, Model/Integrators; equations of motion with a date in Spec/InWaves","the date becomes a fourteenth state, of rate 1: the method applied to the extended equations gives the same states and the dates of the steps; then the tube argument of C200, the responses being sums of products of Lipschitz functions")
t("C203","Model/Wageningen, Model/Forces; the published tables in Spec/BSeries, one line per term","the sums of the code and of the published tables are compared term by term, then put in the force")
t("C204","Model/AddedSpectra (sums, std::set as a finite set), Model/Waves (discretize, flatten)","induction on the terms; uniqueness of the sorted list of a finite set; linearity of the trapezoidal rule with C45")
t("C205","Model/Server (cosimToGrpc, stepQuaternion, stepEuler)","unfolding for any request; combination with the requests of C185 for the states of the answer")
t("C206","Model/MultiBody (sum_of_forces, dx_dt), Model/Sim, Model/Solver, Model/Server; SameResultant and Amounts in Props/Resultant","sums of permuted or split lists; successful evaluations are carried over through the steps of any solver (induction on the program of a step and on the number of steps)")
t("C207","Model/Fleet, Model/MultiBody, Model/Integrators; TogetherOfOrder in Props/FleetConverge","C178 (each body moves as alone) with C198 and C201, and uniform constants over the bodies")
t("C208","Spec/Scale (units of every quantity, force models and controllers in other units), Model/Integrators, Model/Control, Model/Forces (propeller, Rudder)","the equations of motion are carried from one system of units to the other; a step of a Runge-Kutta method commutes with that change (derivatives multiplied by a number, step divided by it)")
t("C209","Model/JsonWaves, Model/Observer (putGrid), Model/WaveGrid, Model/Base91; the client in Props/JsonWaves (member, readElevation)","the mesh (C54), the matrix column by column, and the round trip of base91 (C01) put together")
t("C210","Model/WaveFeed on Model/MultiBody (frames), Model/Fleet and Model/WaveGrid; placement of a body and of the points of the mesh written out in Props/WaveFeed (Placed, carriedPoint, Heights, Coordinates)","induction on the bodies for the frames that are known after the update; the mesh (C54) for the rest; the conjugation by the quaternion for turned bodies")
t("C211","Model/RadiationDebug (CSVWriter, constructor), Model/Hdb (retardation); the reader in Props/RadiationDebug (firstTable, secondTable, cell)","the text as lines and the lines as fields joined by a separator, then splitting is the inverse of joining; names of the columns by evaluation (36 of them)")
t("C212","Model/HistoryText, Model/History","induction on the number of samples written; the unsigned subtraction is computed modulo 2^64")
t("C213","Model/KtKq, Model/Forces (advanceRatio, propeller); specification Tabulated and Interpolates in Props/KtKq","field arithmetic; bounds of an increasing list by cases on its ends")
t("C214","Model/AttachedFrames on Model/MultiBody and Model/WaveFeed; SameEffect (work in every motion, in NED) in Props/AttachedFrames","invariant of the frames under additions with other names; power of a transported wrench (C119); induction on the bodies for the frames that are known when the forces of a body are evaluated")
t("C215","Sim, Solver, Body, gravity (Model/Mechanical); the flight in Spec/Flight","the explicit motion satisfies Newton's equations (derivatives of the quaternion and of the rotation matrix); convergence of C198 and C201")
t("C216","Sim, Solver, Body, gravity (Model/Mechanical); energy and momentum of Spec/Energy","quantities constant along the exact motion (C188, C189), Lipschitz on bounded sets, with the convergence of C198 and C201")
t("C217","quat2eul (Model/Quat2Eul), the extraction of the angles (SSC) being external","direct, with the quaternion of a rotation (C140); the usual formulas meet what is assumed about SSC; counterexamples")
t("C218","the simulations of C198","the distances of both results to the exact solution (C198)")
t("C219","Model/Solver","induction on the loop for both end dates together; the observations only grow")
