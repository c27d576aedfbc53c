{"id": "C01", "title": "Decoding the optimisation vector of a direct simulation returns what was encoded", "statement": "For a direct optimal-laptime computation, writing the per-node inputs and the control variables into the flat optimisation vector and reading that vector back with the cost-function's loader gives the same inputs (all except the time, which is not optimised) and the same control values at every node that is optimised.", "quantifier": "every number of nodes, every number of inputs and position of the time, every mix of don't-optimise/constant/hypermesh/full-mesh controls that passes validation, open and closed simulations", "why_tests_cant": "The layout is a hand-maintained running index shared by two functions; a test fixes one vehicle, one mix of control kinds and one mesh.", "anchors": ["src/core/applications/optimal_laptime.hpp:Optimal_laptime::compute_direct", "src/core/applications/optimal_laptime.hpp:FG_direct::compute", "src/core/applications/optimal_laptime.h:FG::n_variables"]}
{"id": "C02", "title": "The direct optimisation vector has exactly the advertised number of entries", "statement": "The number of values, of lower bounds and of upper bounds pushed by a direct optimal-laptime computation equals the number of optimisation variables computed from the sizes, so the run-time consistency check of the computation never fails on validated input.", "quantifier": "every mesh size, open or closed, every mix of control kinds accepted by validation", "why_tests_cant": "Only specific mixes are exercised by the regression cases; the count formula and the packing loop are written separately.", "anchors": ["src/core/applications/optimal_laptime.hpp:compute_direct", "src/core/applications/optimal_laptime.h:FG::get_n_variables", "src/core/applications/detail/optimal_laptime_data.h:n_variables_per_point"]}
{"id": "C03", "title": "The direct cost function emits exactly the advertised number of constraints", "statement": "The constraint evaluation of a direct simulation writes 1 (the cost) plus the advertised number of constraints, and the lower/upper constraint bounds have the advertised size, for open and closed tracks and for any set of restricted integral quantities.", "quantifier": "every mesh size, open/closed, every set of restricted integral quantities", "why_tests_cant": "Counting is split over three functions; a mismatch only shows for the configuration that triggers it.", "anchors": ["src/core/applications/optimal_laptime.hpp:FG_direct::compute", "src/core/applications/optimal_laptime.h:FG::get_n_constraints"]}
{"id": "C04", "title": "The derivative-form optimisation vector is consistent for every control kind", "statement": "For a simulation with control derivatives, the number of values pushed equals the advertised number of optimisation variables for every validated mix of control kinds, including CONSTANT controls.", "quantifier": "every mesh size, open or closed, every mix of control kinds accepted by validation", "why_tests_cant": "No regression case uses a CONSTANT control with the derivative formulation.", "anchors": ["src/core/applications/optimal_laptime.hpp:Optimal_laptime::compute_derivative"]}
{"id": "C05", "title": "The derivative-form cost function emits exactly the advertised number of constraints", "statement": "The constraint evaluation of a derivative-form simulation writes 1 plus the advertised number of constraints (states, extra constraints and one control-integration row per full-mesh control for every element, plus the restricted integral quantities).", "quantifier": "every mesh size, open/closed, every number of full-mesh controls", "why_tests_cant": "Same counting argument over unbounded configurations.", "anchors": ["src/core/applications/optimal_laptime.hpp:FG_derivative::compute", "src/core/applications/optimal_laptime.h:FG::get_n_constraints"]}
{"id": "C06", "title": "The reported lap time is the optimised cost minus the control-smoothing penalty", "statement": "For the direct formulation the cost evaluated at a point equals the lap time reported for that point, counted from the time of its first node, plus the control dissipation penalty, which is non-negative on a mesh that does not go back; with zero dissipations the two coincide.", "quantifier": "every mesh, every scheme parameter sigma, every time-per-metre sequence, every control history, open and closed", "why_tests_cant": "Floating-point comparisons on three circuits cannot show that two separately coded quadratures agree for all meshes.", "anchors": ["src/core/applications/optimal_laptime.hpp:compute_direct (laptime)", "src/core/applications/optimal_laptime.hpp:FG_direct::compute (fg[0])"]}
{"id": "C07", "title": "The control-smoothing penalty vanishes exactly for unchanging controls", "statement": "With positive dissipation and an increasing mesh, the control dissipation penalty of the direct formulation is zero if and only if every full-mesh control keeps the same value at all nodes.", "quantifier": "every mesh and every control history", "why_tests_cant": "An iff over all histories.", "anchors": ["src/core/applications/optimal_laptime.hpp:FG_direct::compute"]}
{"id": "C08", "title": "The derivative-form penalty of an element uses the control rates at its two ends", "statement": "In the derivative form the cost is the lap time plus, for every full-mesh control and every element, the dissipation times the mean of the squared control rates at the two ends of that element times its length.", "quantifier": "every element of every mesh", "why_tests_cant": "The wrong index is 0 in the first element, so two-node tests agree.", "anchors": ["src/core/applications/optimal_laptime.hpp:FG_derivative::compute"]}
{"id": "C09", "title": "Lap time and node times are sums of positive contributions", "statement": "If the mesh is increasing (and ends before the track length when closed), 0<=sigma<=1 and time-per-metre is positive at every node, then the node times are strictly increasing and the lap time is positive and, when closed, larger than the last node time.", "quantifier": "every mesh with at least two nodes, every positive time-per-metre sequence", "why_tests_cant": "Universal claim over real sequences of any length.", "anchors": ["src/core/applications/optimal_laptime.hpp:compute_direct"]}
{"id": "C10", "title": "At constant speed the lap time is exactly distance over speed", "statement": "If time-per-metre is the constant 1/v at all nodes then the reported lap time is (track length)/v for closed simulations and (last-first arclength)/v for open ones, whatever the mesh and sigma.", "quantifier": "every mesh, every sigma, every v", "why_tests_cant": "Any mesh size; a test can only pick meshes.", "anchors": ["src/core/applications/optimal_laptime.hpp:compute_direct", "src/core/applications/optimal_laptime.hpp:FG_direct::compute"]}
{"id": "C11", "title": "Integral quantities use the same quadrature as the lap time", "statement": "An integral quantity whose integrand equals time-per-metre at every node has exactly the value of the lap time.", "quantifier": "every mesh, every sigma, open and closed", "why_tests_cant": "All regression cases use sigma=0.5, for which swapped weights are invisible.", "anchors": ["src/core/applications/optimal_laptime.hpp:FG_direct::compute (integral quantities)", "src/core/applications/optimal_laptime.hpp:FG_derivative::compute"]}
{"id": "C12", "title": "Zero defects mean the discrete equations of motion hold", "statement": "All the element residuals of a time-derivative state are zero if and only if, at every element, the state at its end equals the state at its start plus the element length times the sigma-weighted mean of the end derivatives (with wrap-around for closed simulations).", "quantifier": "every mesh, every state history", "why_tests_cant": "Universal over histories.", "anchors": ["src/core/applications/optimal_laptime.hpp:FG_direct::compute (equality constraints)"]}
{"id": "C13", "title": "Which optimal-laptime inputs are accepted", "statement": "A computation request is accepted exactly when: at least two arclengths, the first one is (numerically) zero and the last is before the track end for closed simulations, or both within the track for open ones, the inputs have one entry per arclength, every full-mesh control has one value per arclength (and one derivative in derivative mode), and all integral-quantity names are known.", "quantifier": "every arclength vector, every track length, every control set", "why_tests_cant": "Decision logic with many boundaries.", "anchors": ["src/core/applications/optimal_laptime.hpp:check_inputs"]}
{"id": "C14", "title": "Accepted arclengths are increasing", "statement": "Every accepted request has strictly increasing arclengths, so every element has positive length.", "quantifier": "every arclength vector", "why_tests_cant": "Only invalid user input shows it; the code lacks the check.", "anchors": ["src/core/applications/optimal_laptime.hpp:check_inputs"]}
{"id": "C15", "title": "Lateral displacement is confined between the track limits at every node", "statement": "The bounds packed for the lateral displacement at each optimised node are [-left limit, +right limit] of the track at that node's arclength, and every other input and control gets the bounds of the options.", "quantifier": "every node of every mesh, every track", "why_tests_cant": "Universal over nodes and tracks; an index slip affects single nodes.", "anchors": ["src/core/applications/optimal_laptime.hpp:compute_direct (bounds)"]}
{"id": "C16", "title": "The sensitivity of time-per-metre is the derivative of time-per-metre", "statement": "The formula used for the derivative of time-per-metre with respect to a parameter is the true derivative of (1-n*kappa)/(u cos(alpha) - v sin(alpha)) along any differentiable dependence of n, alpha, u, v on the parameter (denominator non-zero).", "quantifier": "every differentiable family of states", "why_tests_cant": "Finite differences only approximate; a sign error can hide under tolerance.", "anchors": ["src/core/applications/optimal_laptime.hpp:compute_direct (d2time_dsdp)"]}
{"id": "C17", "title": "The lap-time sensitivity is the sum over the mesh of the time-per-metre sensitivities", "statement": "The reported lap-time sensitivity equals the derivative of the reported lap time when every time-per-metre depends differentiably on the parameter.", "quantifier": "every mesh, open and closed, every sigma", "why_tests_cant": "Universal over meshes and smooth families.", "anchors": ["src/core/applications/optimal_laptime.hpp:compute_direct (dlaptimedp)"]}
{"id": "C18", "title": "In open simulations the fixed first node has zero sensitivity", "statement": "For an open simulation, after the sensitivity is extracted, the sensitivities of all controls at the first node are zero and those of the other nodes are the ones solved for.", "quantifier": "every number of controls, nodes and parameters", "why_tests_cant": "Index confusion between control and node only shows with particular sizes.", "anchors": ["src/core/applications/optimal_laptime.hpp:compute_direct (export sensitivity)"]}
{"id": "C19", "title": "Which control-variable definitions are accepted, and what validation changes", "statement": "Validation of the control variables accepts exactly the definitions consistent with their kind (sizes of hypermesh, values, derivatives, non-negative dissipation), only ever resets the dissipation of non-full-mesh controls to zero, and validating twice is the same as validating once.", "quantifier": "every list of control variables", "why_tests_cant": "Decision logic over all combinations of sizes.", "anchors": ["src/core/applications/detail/optimal_laptime_control_variables.h:check_inputs", "src/core/applications/detail/optimal_laptime_control_variables.h:check"]}
{"id": "C20", "title": "Hypermesh controls are piecewise constant and right-continuous", "statement": "For an increasing hypermesh, the control value at arclength s is the value of the last checkpoint not after s; before the first checkpoint the call throws; an out-of-range access never happens.", "quantifier": "every sorted hypermesh, every s", "why_tests_cant": "Binary search boundaries; unbounded meshes.", "anchors": ["src/core/applications/detail/optimal_laptime_control_variable.h:get_hypermesh_position_for_s", "src/core/applications/detail/optimal_laptime_control_variable.h:get_hypermesh_control_value_for_s"]}
{"id": "C21", "title": "Evaluating the controls at a node", "statement": "At node i with arclength s: a don't-optimise control yields the vehicle default, a constant control its single value, a hypermesh control its piecewise-constant value at s, a full-mesh control its i-th value; the time derivative is zero for all but full-mesh controls.", "quantifier": "every validated control set, every node, every s", "why_tests_cant": "All mixes of kinds.", "anchors": ["src/core/applications/detail/optimal_laptime_control_variables.h:control_array_at_s", "src/core/applications/detail/optimal_laptime_control_variables.h:control_array_and_derivative_at_s"]}
{"id": "C22", "title": "Control statistics count what the optimiser will see", "statement": "After validation the three counters equal the number of constant controls, the total number of hypermesh checkpoints and the number of full-mesh controls.", "quantifier": "every list of control variables", "why_tests_cant": "Unbounded lists.", "anchors": ["src/core/applications/detail/optimal_laptime_control_variables.h:compute_statistics"]}
{"id": "C23", "title": "Which varying parameters can be created", "statement": "Creating a spatially-varying parameter succeeds exactly when it has at least two values, one alias per value, strictly increasing checkpoints, every checkpoint refers to an existing value and every value is used by some checkpoint.", "quantifier": "every list of values, aliases and checkpoints", "why_tests_cant": "Decision logic.", "anchors": ["src/core/foundation/model_parameter.h:Model_parameter"]}
{"id": "C24", "title": "A varying parameter interpolates its checkpoints", "statement": "At a checkpoint that is not the last one the parameter equals the value attached to that checkpoint, and between two checkpoints it lies between the two attached values and is their linear blend.", "quantifier": "every accepted parameter, every s inside the mesh", "why_tests_cant": "Universal over meshes and real s.", "anchors": ["src/core/foundation/model_parameter.h:Model_parameter::operator()"]}
{"id": "C25", "title": "Outside its mesh a varying parameter keeps the value of the nearest checkpoint", "statement": "Before the first checkpoint (after the last one) a varying parameter equals the value attached to the first (last) checkpoint, so it is continuous over the whole track.", "quantifier": "every accepted parameter, every s", "why_tests_cant": "Only meshes whose end checkpoints do not refer to the first/last value show the difference.", "anchors": ["src/core/foundation/model_parameter.h:Model_parameter::operator()"]}
{"id": "C26", "title": "Reading and writing all parameters round-trips", "statement": "Setting all parameters from a flat vector of the right length and reading them back returns that vector; writing back what was read changes nothing; each parameter keeps its path, aliases and mesh.", "quantifier": "every list of parameters, every vector", "why_tests_cant": "Unbounded lists and slice offsets.", "anchors": ["src/core/foundation/model_parameter.h:Model_parameters::set_all_parameters", "src/core/foundation/model_parameter.h:get_all_parameters_as_scalar"]}
{"id": "C27", "title": "Parameter paths stay unique", "statement": "After any sequence of parameter declarations, accepted or rejected, no two declared parameters have the same path, a rejected declaration leaves the list unchanged, and an accepted one appends exactly one.", "quantifier": "every sequence of declarations", "why_tests_cant": "Histories.", "anchors": ["src/core/vehicles/dynamic_model.h:add_parameter"]}
{"id": "C28", "title": "A name denotes at most one variable", "statement": "After any sequence of C API calls no name exists in two tables (vehicle, track, scalar, vector) at once.", "quantifier": "every history of API calls, including failing ones", "why_tests_cant": "Histories; only one entry point misses the check.", "anchors": ["src/main/c/fastestlapc.cpp:check_variable_exists_in_tables", "src/main/c/fastestlapc.cpp:circuit_preprocessor", "src/main/c/fastestlapc.cpp:create_vector"]}
{"id": "C29", "title": "What was stored is what is downloaded", "statement": "After creating a scalar or vector under a fresh name, downloading it returns exactly the stored value, and continues to do so after any sequence of calls that do not delete or move that name.", "quantifier": "every history of API calls", "why_tests_cant": "Histories.", "anchors": ["src/main/c/fastestlapc.cpp:create_scalar", "src/main/c/fastestlapc.cpp:create_vector", "src/main/c/fastestlapc.cpp:download_scalar", "src/main/c/fastestlapc.cpp:download_vector"]}
{"id": "C30", "title": "Copy and move of variables", "statement": "Copying gives the new name the same type and value and keeps the old one; moving also removes the old name; both throw and change nothing when the old name does not exist or the new name is taken (including old = new).", "quantifier": "every registry state, every pair of names", "why_tests_cant": "All states.", "anchors": ["src/main/c/fastestlapc.cpp:copy_variable", "src/main/c/fastestlapc.cpp:move_variable"]}
{"id": "C31", "title": "Deleting by pattern removes exactly the matching names", "statement": "delete_variable removes every variable whose whole name matches the pattern ('*' standing for any text) and no other, in all tables; deleting again changes nothing.", "quantifier": "every registry state, every pattern built from ordinary characters and '*'", "why_tests_cant": "All patterns and states; '.' is a regex metacharacter.", "anchors": ["src/main/c/fastestlapc.cpp:delete_variable"]}
{"id": "C32", "title": "A rejected create/copy/move/download call changes nothing", "statement": "If a create, copy, move or download call throws, all tables are as before.", "quantifier": "every registry state and call", "why_tests_cant": "All states.", "anchors": ["src/main/c/fastestlapc.cpp:create_vehicle_empty", "src/main/c/fastestlapc.cpp:create_scalar", "src/main/c/fastestlapc.cpp:copy_variable"]}
{"id": "C33", "title": "Printing a variable never writes past the caller's buffer", "statement": "print_variable_to_string either throws or writes at most n_char bytes (including the terminator) into the caller's buffer.", "quantifier": "every text length, every n_char", "why_tests_cant": "Off-by-one at exact length.", "anchors": ["src/main/c/fastestlapc.cpp:print_variable_to_string"]}
{"id": "C34", "title": "Downloading never writes past the caller's buffer", "statement": "download_vector and track_download_data write exactly n doubles when n is the size of the variable, and throw without writing otherwise.", "quantifier": "every table, every n (including negative)", "why_tests_cant": "All n.", "anchors": ["src/main/c/fastestlapc.cpp:download_vector", "src/main/c/fastestlapc.cpp:track_download_data"]}
{"id": "C35", "title": "Alias lists are parsed back exactly", "statement": "Joining aliases with ';' (aliases non-empty, without ';' or blanks) and passing them to vehicle_declare_new_variable_parameter declares exactly these aliases in order.", "quantifier": "every list of aliases", "why_tests_cant": "Unbounded lists.", "anchors": ["src/main/c/fastestlapc.cpp:vehicle_declare_new_variable_parameter"]}
{"id": "C36", "title": "Kerbs of a side are ordered and do not overlap", "statement": "After any sequence of kerb insertions, accepted or rejected, the kerbs of a side each have start before finish and follow each other.", "quantifier": "every sequence of insertions", "why_tests_cant": "Histories; the first insertion is special.", "anchors": ["src/core/vehicles/kerb.h:append_kerb"]}
{"id": "C37", "title": "Kerb width at a point", "statement": "The kerb width at s is the width of the first kerb containing s if it is in use (or display is requested) and zero otherwise; for ordered separated kerbs at most one kerb contains s.", "quantifier": "every kerb list, every s", "why_tests_cant": "Universal over lists and s.", "anchors": ["src/core/vehicles/kerb.h:evaluate_generic"]}
{"id": "C38", "title": "Tracks made of arcs are continuous with unit tangent", "statement": "Along a track built from straights and corners the position and the tangent are continuous from one segment to the next, and the tangent has unit length everywhere.", "quantifier": "every list of straights and corners, every arclength", "why_tests_cant": "Universal over segment lists.", "anchors": ["src/core/vehicles/track_by_arcs.hpp:Track_by_arcs", "src/core/vehicles/track_by_arcs.hpp:at"]}
{"id": "C39", "title": "The length of a track made of arcs is the sum of its pieces", "statement": "Each segment's length is the declared length of the straight or radius times angle of the corner, segment starts accumulate those lengths, and the end point of a segment is the start of the next.", "quantifier": "every segment list", "why_tests_cant": "Unbounded lists.", "anchors": ["src/core/vehicles/track_by_arcs.hpp:Track_by_arcs"]}
{"id": "C40", "title": "Unknown segment kinds are rejected", "statement": "Constructing a track with a segment that is neither straight nor corner throws, wherever the segment is.", "quantifier": "every segment list and position", "why_tests_cant": "Only the last position escapes.", "anchors": ["src/core/vehicles/track_by_arcs.hpp:Track_by_arcs"]}
{"id": "C41", "title": "The curvilinear coordinates move with the car", "statement": "On a planar road, for a car moving with body velocities (u,v) the rates of arclength, lateral displacement and relative heading computed by the road model are such that the ground position reconstructed from (s, n) moves with exactly the velocity (u,v) rotated by the heading, whenever time-per-metre is defined.", "quantifier": "every road curve, every state", "why_tests_cant": "Identity over all states.", "anchors": ["src/core/vehicles/road_curvilinear.hpp:update", "src/core/vehicles/road_curvilinear.h"]}
{"id": "C42", "title": "The road frame is orthonormal and right-handed", "statement": "The tangent, normal and binormal computed from the Euler angles of the road are orthonormal and right-handed for all angles.", "quantifier": "all Euler angles", "why_tests_cant": "Trigonometric identity.", "anchors": ["src/core/vehicles/road_curvilinear.hpp:update_track"]}
{"id": "C43", "title": "Cartesian kinematics preserve speed", "statement": "On the cartesian road the ground speed squared equals u^2+v^2 and rotating the car by an angle rotates its ground velocity by that angle.", "quantifier": "all headings and velocities", "why_tests_cant": "Trigonometric identity.", "anchors": ["src/core/vehicles/road_cartesian.hpp:update"]}
{"id": "C44", "title": "Engine torque never brakes and never exceeds the power curve", "statement": "With non-negative throttle and positive wheel speed the engine torque is non-negative, linear in throttle, and torque times speed equals throttle times the (clamped, extrapolated) power; the power used is continuous at both ends of the tabulated range.", "quantifier": "every power curve, every throttle and speed", "why_tests_cant": "Universal over curves.", "anchors": ["src/core/actuators/engine.hpp:operator()"]}
{"id": "C45", "title": "Tyre force of the simple Pacejka model stays inside the friction ellipse", "statement": "For positive normal load and positive friction limits the longitudinal and lateral forces satisfy (Fx/(mu_x Fz))^2+(Fy/(mu_y Fz))^2 < 1, where mu_x, mu_y are the load-dependent peak coefficients.", "quantifier": "every slip, every load", "why_tests_cant": "Universal over reals.", "anchors": ["src/core/tire/tire_pacejka.hpp:Pacejka_simple_model"]}
{"id": "C46", "title": "Tyre forces are odd in slip and vanish without slip", "statement": "Reversing the longitudinal (lateral) slip reverses the longitudinal (lateral) force of the simple model and keeps the other one; zero slip gives zero force.", "quantifier": "every slip, every load", "why_tests_cant": "Universal over reals.", "anchors": ["src/core/tire/tire_pacejka.hpp:Pacejka_simple_model"]}
{"id": "C47", "title": "Combined slip never increases the tyre force", "statement": "In the standard Pacejka model the combined-slip forces are in absolute value at most the pure-slip forces and equal them when the other slip is zero, and the pure forces are at most peak friction times load.", "quantifier": "every slip, every load", "why_tests_cant": "Universal over reals.", "anchors": ["src/core/tire/tire_pacejka.hpp:Pacejka_standard_model"]}
{"id": "C48", "title": "Wheel speed and longitudinal slip are inverse to each other", "statement": "Setting the slip and reading back the slip from the resulting wheel speed gives the same slip, and vice versa, whenever the tyre moves forward.", "quantifier": "every slip and velocity", "why_tests_cant": "Universal over reals.", "anchors": ["src/core/tire/tire.hpp:update", "src/core/tire/tire.hpp:update_from_kappa"]}
{"id": "C49", "title": "The kart axle deformations solve the suspension equations", "statement": "The tyre and chassis deformations computed by the kart axle satisfy the documented spring equations (kinematic compatibility and force balance with the anti-roll bar) for positive stiffnesses, and they are the only solution.", "quantifier": "every displacement and all positive stiffnesses", "why_tests_cant": "Closed-form solution of a linear system.", "anchors": ["src/core/chassis/axle_car_6dof.hpp:update", "src/core/chassis/axle_car_6dof.h"]}
{"id": "C50", "title": "The differential delivers the engine power minus its dissipation", "statement": "On the driven axle, without braking, the sum of wheel torque times wheel speed equals the engine plus boost power minus differential stiffness times the squared speed difference, hence never exceeds the engine power for non-negative stiffness.", "quantifier": "every wheel-speed pair with non-zero mean", "why_tests_cant": "Universal over reals.", "anchors": ["src/core/chassis/axle_car_3dof.hpp:update"]}
{"id": "C51", "title": "Brakes only dissipate and the bias only distributes", "statement": "The braking torque opposes each wheel's rotation, and the front and rear braking effort of equal brakes add up to the total whatever the bias.", "quantifier": "every throttle, bias, wheel speed", "why_tests_cant": "Universal over reals.", "anchors": ["src/core/chassis/axle_car_3dof.hpp:update", "src/core/chassis/chassis_car_3dof.hpp:update"]}
{"id": "C52", "title": "Gravity keeps its magnitude on any road", "statement": "The gravity force expressed in road axes has magnitude m*g0 for all road attitudes and car headings, and equals the vertical force m*g0 rotated into the road frame.", "quantifier": "all Euler angles and headings", "why_tests_cant": "Trigonometric identity.", "anchors": ["src/core/chassis/chassis.hpp:get_gravity_force"]}
{"id": "C53", "title": "Default vehicle inputs lie inside their bounds", "statement": "Every default input and control value of the F1 chassis lies between its lower and upper bound.", "quantifier": "all inputs and controls", "why_tests_cant": "Nobody checks the defaults against bounds.", "anchors": ["src/core/chassis/chassis_car_3dof.hpp:set_state_and_control_upper_lower_and_default_values"]}
{"id": "C54", "title": "Every equation is classified exactly once", "statement": "The classification of the vehicle equations into differential and algebraic ones is a partition of all state indices except time, on flat and on elevated roads.", "quantifier": "every number of states, every index of time, flat or elevated", "why_tests_cant": "Universal over index sets.", "anchors": ["src/core/vehicles/dynamic_model_car.h:classify_equations", "src/core/vehicles/limebeer2014f1.h:classify_equations"]}
{"id": "C55", "title": "The four copies of a vehicle stay identical", "statement": "After any sequence of parameter settings and declarations through the vehicle container, and of evaluations of single copies, also when calls throw, the four internal car copies have the same declared parameters and the same values of all others, and any two evaluated at the same arclength become equal.", "quantifier": "every history of calls", "why_tests_cant": "Histories, exceptions.", "anchors": ["src/core/vehicles/limebeer2014f1.h:limebeer2014f1_all"]}
{"id": "C56", "title": "Respecting the extra constraints keeps all the wheels on the track", "statement": "If the F1 track-limit constraints hold then both front and rear wheels' lateral positions, computed from lateral displacement, half track and heading, lie between the track limits.", "quantifier": "every displacement, heading, track width", "why_tests_cant": "Universal over reals.", "anchors": ["src/core/vehicles/limebeer2014f1.h:optimal_laptime_extra_constraints"]}
{"id": "C57", "title": "Decoding the preprocessor's optimisation vector returns what was encoded", "statement": "The track-preprocessor's per-point states and controls written to the flat vector are read back unchanged, and the vector has the advertised size.", "quantifier": "every number of points, flat and elevated, open and closed", "why_tests_cant": "Index arithmetic over unbounded sizes.", "anchors": ["src/core/applications/circuit_preprocessor.hpp:compute", "src/core/applications/circuit_preprocessor.h:FG"]}
{"id": "C58", "title": "Track boundaries lie at the declared distances", "statement": "The left and right boundary points reconstructed from the centreline are at distance nl and nr from the centreline point, on opposite sides and perpendicular to the direction of travel, flat and elevated.", "quantifier": "every centreline state", "why_tests_cant": "Trigonometric identity.", "anchors": ["src/core/applications/circuit_preprocessor.h:get_coordinates"]}
{"id": "C59", "title": "KML coordinates are de-interleaved without loss", "statement": "Reading a flat list of lon,lat,alt values gives one point per triple in order; lengths not multiple of three are rejected.", "quantifier": "every coordinate list", "why_tests_cant": "Unbounded lists.", "anchors": ["src/core/applications/circuit_preprocessor.hpp:read_kml"]}
{"id": "C60", "title": "The yaw angle of the computed centreline has no jumps", "statement": "After the unwrapping loop consecutive yaw angles differ by at most pi and each is congruent modulo 2 pi to the original one.", "quantifier": "every yaw list", "why_tests_cant": "Unbounded lists.", "anchors": ["src/core/applications/circuit_preprocessor.hpp:compute"]}
{"id": "C61", "title": "A lap computation that throws leaves the stored variables as they were", "statement": "If optimal_laptime throws, no scalar, vector or track has been added, changed or removed.", "quantifier": "every registry state, every set of requested variables, every failure", "why_tests_cant": "Failures in the middle of saving.", "anchors": ["src/main/c/fastestlapc.cpp:compute_optimal_laptime", "src/main/c/fastestlapc.cpp:optimal_laptime"]}
{"id": "C62", "title": "Names written to the caller never exceed the given buffer size", "statement": "vehicle_type_get_names and variable_type either throw or write at most the given number of bytes per name, terminator included.", "quantifier": "every name, every buffer size", "why_tests_cant": "Boundary sizes, unsigned wrap-around.", "anchors": ["src/main/c/fastestlapc.cpp:vehicle_type_get_names_generic", "src/main/c/fastestlapc.cpp:variable_type"]}
{"id": "C63", "title": "A successful lap computation stores every requested variable", "statement": "After optimal_laptime returns for an existing vehicle and track, every requested variable is stored under prefix + name with its value (lap time, integral quantity, or vector).", "quantifier": "every registry state and request", "why_tests_cant": "All requests and states.", "anchors": ["src/main/c/fastestlapc.cpp:compute_optimal_laptime"]}
{"id": "C64", "title": "Constraint bounds line up with the constraints", "statement": "The bounds given to the solver for each constraint belong to that constraint: equality rows get [0,0], every extra constraint gets the vehicle's bounds at the arclength of the end of its element, every restricted integral quantity gets the requested bounds.", "quantifier": "every mesh, open and closed, direct and derivative form, every set of restricted quantities", "why_tests_cant": "Bounds and constraints are written by two separately maintained loops over running indices.", "anchors": ["src/core/applications/optimal_laptime.hpp:compute_direct (bounds)", "src/core/applications/optimal_laptime.hpp:compute_derivative (bounds)", "src/core/applications/optimal_laptime.hpp:FG_direct::compute", "src/core/applications/optimal_laptime.hpp:FG_derivative::compute"]}
{"id": "C65", "title": "A warm start is accepted exactly when its multipliers have the sizes of the problem", "statement": "A request with Lagrange multipliers gets past the size checks exactly when there is one lower and one upper multiplier per optimisation variable and one multiplier per constraint; otherwise it throws.", "quantifier": "every accepted request and every multiplier vectors", "why_tests_cant": "Sizes of all requests.", "anchors": ["src/core/applications/optimal_laptime.hpp:compute_direct", "src/core/applications/optimal_laptime.hpp:compute_derivative"]}
{"id": "C66", "title": "Only the requested integral quantities are constrained, with the requested bounds", "statement": "An integral quantity is constrained exactly when the options name it; its bounds are those of the last entry naming it.", "quantifier": "every list of requests and every table of names", "why_tests_cant": "Repeated names and all orders.", "anchors": ["src/core/applications/optimal_laptime.hpp:check_inputs", "src/core/applications/optimal_laptime.h:Integral_quantities"]}
{"id": "C67", "title": "Blanks around the names of an alias list are ignored", "statement": "Padding the names of a semicolon-separated list of parameter aliases with blanks gives the same aliases as writing the list without blanks.", "quantifier": "every list of names and every amount of padding", "why_tests_cant": "All strings.", "anchors": ["src/main/c/fastestlapc.cpp:vehicle_declare_new_variable_parameter"]}
{"id": "C68", "title": "Kerbs are placed exactly where the centreline is close to the edge", "statement": "Computing the kerbs of a side gives one kerb for each maximal stretch of at least two samples in which the racing line uses more than 80 % of the width towards that side, from the first sample of the stretch to the first one after it, and no other kerb; kerbs inside a corner are not in use.", "quantifier": "every sampled racing line, every curvature profile", "why_tests_cant": "All numbers of samples and all shapes of the profile.", "anchors": ["src/core/vehicles/kerb.h:compute"]}
{"id": "C69", "title": "Track limits are the measured limits widened by the kerbs", "statement": "At every sample of the preprocessed track the limit used by the road model is the measured distance to the border plus the width of the kerb there.", "quantifier": "every track, every kerb list", "why_tests_cant": "All data.", "anchors": ["src/core/vehicles/track_by_polynomial.hpp:Track_by_polynomial"]}
{"id": "C70", "title": "A closed track made of arcs ends where it starts", "statement": "Evaluating a closed track made of straights and corners at its total length gives its starting point.", "quantifier": "every closed list of straights and corners", "why_tests_cant": "All shapes of track.", "anchors": ["src/core/vehicles/track_by_arcs.hpp:Track_by_arcs", "src/core/vehicles/track_by_arcs.hpp:at"]}
{"id": "C71", "title": "The reported curvature is the declared one", "statement": "Everywhere on a straight or a corner of a track made of arcs, the rate of rotation of the heading is zero or one over the scaled radius with the sign of the turn, and is the curvature of the returned line.", "quantifier": "every list of straights and corners, every arclength", "why_tests_cant": "All radii, sweeps and positions.", "anchors": ["src/core/vehicles/track_by_arcs.hpp:operator()", "src/core/vehicles/track_by_arcs.hpp:at"]}
{"id": "C72", "title": "Derivatives of an offset line are derivatives", "statement": "The velocity and acceleration returned for a line at lateral offset w(s) are the first and second derivatives of the returned position, for every smooth offset.", "quantifier": "every track made of arcs, every twice differentiable offset", "why_tests_cant": "All functions w.", "anchors": ["src/core/vehicles/track_by_arcs.hpp:position_at"]}
{"id": "C73", "title": "The curvature vector is the rotation of the road frame", "statement": "The curvature vector computed by the road model is the angular velocity of the tangent-normal-binormal frame per unit of arclength: the derivative of each axis along the track is the curvature vector times that axis.", "quantifier": "every differentiable attitude of the road, all angles", "why_tests_cant": "Derivative of a rotation for all angle functions.", "anchors": ["src/core/vehicles/road_curvilinear.hpp:update_track"]}
{"id": "C74", "title": "The reported engine power is the delivered power", "statement": "After computing the engine torque, the power reported by the engine is torque times speed.", "quantifier": "every engine, throttle and speed", "why_tests_cant": "All engine modes and histories.", "anchors": ["src/core/actuators/engine.h:get_power", "src/core/actuators/engine.hpp:operator()"]}
{"id": "C75", "title": "The optimiser receives the derivative of the engine torque", "statement": "With automatic differentiation, the derivative carried by the engine torque is the derivative of the torque with respect to throttle and wheel speed.", "quantifier": "every engine mode, all differentiable throttle and speed signals", "why_tests_cant": "A derivative is not observable in the values.", "anchors": ["src/core/actuators/engine.hpp:operator()"]}
{"id": "C76", "title": "A track made of arcs can be evaluated exactly when it was built from nodes", "statement": "Evaluating a default-constructed track throws at every arclength; a track successfully built from any list of nodes can be evaluated at every arclength.", "quantifier": "every list of nodes, every arclength", "why_tests_cant": "All lists and arclengths, also outside the track.", "anchors": ["src/core/vehicles/track_by_arcs.hpp:at"]}
{"id": "C77", "title": "The kart tyres are deformed as the suspension equations say", "statement": "The deformation each tyre sees, from the height at which the axle places it, is the tyre deformation of the suspension equations solved by the axle.", "quantifier": "every height, roll and steering angle, all steering coefficients", "why_tests_cant": "All positions and coefficients.", "anchors": ["src/core/chassis/axle_car_6dof.h:get_tire_position", "src/core/chassis/axle_car_6dof.hpp:update"]}
{"id": "C78", "title": "The vertical velocity given to a kart tyre is the derivative of its height", "statement": "The vertical velocity given to each tyre is the time derivative of the height given to it, for every motion of the axle and of the steering wheel.", "quantifier": "all differentiable motions", "why_tests_cant": "Derivative along all motions.", "anchors": ["src/core/chassis/axle_car_6dof.h:get_tire_velocity", "src/core/chassis/axle_car_6dof.hpp:update"]}
{"id": "C79", "title": "A lateral-only tyre rolls freely", "statement": "A tyre declared to give only lateral forces has zero longitudinal slip and turns at its forward speed over its radius, however it is updated.", "quantifier": "every velocity, both ways of updating the tyre", "why_tests_cant": "All inputs of both updates.", "anchors": ["src/core/tire/tire.hpp:update", "src/core/tire/tire.hpp:update_from_kappa"]}
{"id": "C80", "title": "Derived tyre coefficients follow the parameters", "statement": "After any sequence of parameter changes of a tyre, accepted or rejected, the peak slip angles in radians and the shape coefficients used in the forces are those of the current parameters; unknown names and names outside the tyre's path are rejected.", "quantifier": "every history of parameter changes", "why_tests_cant": "Histories of any length, including rejected calls.", "anchors": ["src/core/tire/tire_pacejka.hpp:set_parameter", "src/core/tire/tire_pacejka.hpp:initialise"]}
{"id": "C81", "title": "The friction peak is reached at the declared slip", "statement": "In the simple Pacejka model the friction coefficient reaches its peak exactly when the normalised slip is one, that is at the declared peak slip.", "quantifier": "every shape factor and slip", "why_tests_cant": "Universal over reals.", "anchors": ["src/core/tire/tire_pacejka.hpp:initialise", "src/core/tire/tire_pacejka.hpp:Pacejka_simple_model"]}
{"id": "C82", "title": "Tyres never deliver power", "statement": "For a tyre that moves forward with non-negative load, the reported dissipation is never positive, for both Pacejka models within the documented ranges of their coefficients.", "quantifier": "every slip, load and velocity", "why_tests_cant": "Universal over reals.", "anchors": ["src/core/tire/tire.h:get_dissipation", "src/core/tire/tire_pacejka.hpp:Pacejka_simple_model", "src/core/tire/tire_pacejka.hpp:Pacejka_standard_model"]}
{"id": "C83", "title": "The reported dissipation is the power of the tyre forces", "statement": "The power of the tyre force at the contact point plus the power of the torque it exerts on the wheel is the reported dissipation, and the reported torque is the moment of the reported force.", "quantifier": "every tyre state", "why_tests_cant": "Universal over reals.", "anchors": ["src/core/tire/tire.h:get_dissipation", "src/core/tire/tire.h:get_longitudinal_torque_at_wheel_center"]}
{"id": "C84", "title": "Slip stiffness of the standard tyre model", "statement": "At zero slip the longitudinal and lateral forces of the standard model grow at the documented cornering and slip stiffness, and the stiffness is continuous as the load vanishes.", "quantifier": "every load and coefficients", "why_tests_cant": "A derivative and a limit.", "anchors": ["src/core/tire/tire_pacejka.hpp:Pacejka_standard_model"]}
{"id": "C85", "title": "The friction coefficients are the declared ones", "statement": "The peak friction coefficients and peak slips used at a load are the linear interpolation of those declared at the two reference loads.", "quantifier": "every load, every declared coefficient", "why_tests_cant": "Universal over reals.", "anchors": ["src/core/tire/tire_pacejka.hpp:Pacejka_simple_model", "src/core/tire/tire_pacejka.h:maximum_kappa"]}
{"id": "C86", "title": "The momentum of the car follows the total force", "statement": "Along every motion in which the reported state has the reported derivative, on every road, the mass times the reported velocity of the centre of mass, in fixed axes, changes at a rate equal to the reported total force, which is the sum of the axle forces, the aerodynamic force and the weight.", "quantifier": "every motion, road attitude, force and parameter set", "why_tests_cant": "Derivatives along all motions in a rotating frame.", "anchors": ["src/core/chassis/chassis_car_3dof.hpp:update", "src/core/chassis/chassis.hpp:get_state_and_state_derivative"]}
{"id": "C87", "title": "The reported velocity of the centre of mass is its velocity", "statement": "The reported velocity of the centre of mass is the velocity of the point of the car at the declared position of the centre of mass.", "quantifier": "every motion and position of the centre of mass", "why_tests_cant": "Derivative along all motions.", "anchors": ["src/core/chassis/chassis_car_3dof.hpp:update"]}
{"id": "C88", "title": "The angular momentum of the car follows the total torque", "statement": "Along every motion in which the reported state has the reported derivative, the inertia matrix times the angular velocity, in fixed axes, changes at a rate equal to the reported torque, for every declared inertia matrix.", "quantifier": "every motion, torque and inertia matrix", "why_tests_cant": "Derivatives along all motions in a rotating frame.", "anchors": ["src/core/chassis/chassis_car_3dof.hpp:update", "src/core/chassis/chassis.h:get_inertia"]}
{"id": "C89", "title": "The reported torque is the moment of the forces about the centre of mass", "statement": "The reported torque is the moment about the centre of mass of the tyre forces at their contact points and of the aerodynamic force at the pressure centre.", "quantifier": "every tyre and aerodynamic force, every geometry", "why_tests_cant": "Universal over forces and positions.", "anchors": ["src/core/chassis/chassis_car_3dof.hpp:update", "src/core/chassis/axle_car_3dof.hpp:update", "src/core/chassis/chassis.h:get_torque"]}
{"id": "C90", "title": "The load transfer follows the documented roll balance", "statement": "Whenever the equations of motion hold, Fz_fr - Fz_fl = D (Fz_fr + Fz_rr - Fz_fl - Fz_rl), with D the roll balance coefficient.", "quantifier": "all loads and coefficients", "why_tests_cant": "Universal over reals.", "anchors": ["src/core/chassis/chassis_car_3dof.hpp:update", "src/core/chassis/chassis_car_3dof.h:_roll_balance_coeff"]}
{"id": "C91", "title": "Longitudinal and lateral accelerations", "statement": "The reported accelerations are the components of the force per unit mass along and across the velocity; on a flat road they are the rate of the speed and the speed times the rate of turn of the direction of travel.", "quantifier": "every velocity other than zero, force and motion", "why_tests_cant": "Derivatives along all motions.", "anchors": ["src/core/chassis/chassis.hpp:get_longitudinal_acceleration", "src/core/chassis/chassis.hpp:get_lateral_acceleration"]}
{"id": "C92", "title": "Aerodynamic forces depend on the velocity relative to the wind", "statement": "The aerodynamic forces depend only on the velocity of the wind (given by its northward and eastward components) relative to the car; the drag points along it and never delivers power to a car in still air, the lift is along the vertical of the car.", "quantifier": "every wind, attitude and velocity", "why_tests_cant": "Universal over reals.", "anchors": ["src/core/chassis/chassis.hpp:get_aerodynamic_force"]}
{"id": "C93", "title": "The aerodynamic forces grow with the square of the relative speed", "statement": "The drag is 1/2 rho cd A times the square of the relative speed and the lift is 1/2 rho cl A times the square of its longitudinal component.", "quantifier": "every wind, attitude and velocity", "why_tests_cant": "Universal over reals.", "anchors": ["src/core/chassis/chassis.hpp:get_aerodynamic_force"]}
{"id": "C94", "title": "The understeer indicator compares the wheels with the turning geometry", "statement": "The indicator is positive (oversteer) when both front wheels are steered into the turn less than rolling around the turning point in line with the rear axle requires, negative (understeer) when both are steered more, zero otherwise; its size is the smaller difference; a car and its mirror image have the same indicator.", "quantifier": "every velocity, yaw rate, geometry and steering angles", "why_tests_cant": "Universal over reals.", "anchors": ["src/core/chassis/chassis.hpp:get_understeer_oversteer_indicator"]}
{"id": "C95", "title": "The yaw rate is the rotation of the car about its own vertical", "statement": "On every road, the axes of the car turn about their vertical at the yaw rate of the state, and the angular velocity used in the equations is that of the axes.", "quantifier": "every road, displacement and velocity", "why_tests_cant": "Derivatives along all motions.", "anchors": ["src/core/vehicles/road_curvilinear.hpp:update", "src/core/chassis/chassis.hpp:update"]}
{"id": "C96", "title": "The road pushes the tyres and carries the car", "statement": "The load handed to a tyre is never negative and follows the vertical load of the input up to the declared smoothing; on a flat straight road the vertical equation of motion holds exactly when the four loads add up to the weight plus the aerodynamic lift.", "quantifier": "every load, aerodynamic setting and mass", "why_tests_cant": "Universal over reals.", "anchors": ["src/core/chassis/chassis_car_3dof.hpp:update", "src/core/chassis/axle_car_3dof.hpp:update", "src/core/tire/tire_pacejka.hpp:update_self"]}
{"id": "C97", "title": "Setting a parameter by its path changes that parameter and nothing else", "statement": "set_parameter on the F1 car succeeds for every documented path and throws for any other string; after success every number stored under that path (both tyres of an axle included) has the new value and nothing else changed; after any history every path holds the value it was last given.", "quantifier": "every history of calls, every string, every value", "why_tests_cant": "Histories and strings are unbounded; the path goes through five levels of prefix matching.", "anchors": ["src/core/chassis/chassis_car_3dof.hpp:set_parameter", "src/core/chassis/chassis.hpp:set_parameter", "src/core/chassis/axle_car_3dof.hpp:set_parameter", "src/core/chassis/axle.hpp:set_parameter", "src/core/tire/tire_pacejka.hpp:set_parameter", "src/core/actuators/brake.h:set_parameter", "src/core/actuators/engine.h:set_parameter"]}
{"id": "C98", "title": "A car reports ready exactly when all its parameters were given", "statement": "is_ready() is true if and only if every parameter without a default has been set.", "quantifier": "every history of calls", "why_tests_cant": "Histories are unbounded.", "anchors": ["src/core/chassis/chassis_car_3dof.h:is_ready", "src/core/chassis/axle.hpp:is_ready", "src/core/tire/tire_pacejka.h:is_ready"]}
{"id": "C99", "title": "The geometry follows the parameters", "statement": "After any history of parameter changes the tyres are half a track to each side of their axle and the axle frames are at the declared axle positions.", "quantifier": "every history of calls", "why_tests_cant": "Histories are unbounded; a stale frame shows only in later evaluations.", "anchors": ["src/core/chassis/axle_car_3dof.hpp:set_parameter", "src/core/chassis/chassis_car_3dof.hpp:set_parameter"]}
{"id": "C100", "title": "A car written to XML and read back is the same car", "statement": "Constructing a car from the document that xml() returns gives a car with the same parameters.", "quantifier": "every parameter set", "why_tests_cant": "Universal over values.", "anchors": ["src/core/vehicles/dynamic_model_car.h:xml", "src/core/chassis/chassis_car_3dof.hpp:fill_xml", "src/core/chassis/axle_car_3dof.hpp:fill_xml", "src/core/tire/tire_pacejka.hpp:fill_xml"]}
{"id": "C101", "title": "Declared parameters take effect at every evaluation and can be overridden", "statement": "After any sequence of calls, evaluating the car gives each declared parameter its value at that arclength and leaves the others alone; setting a declared parameter makes it constant with that value; a parameter declared under an unknown path makes every evaluation throw.", "quantifier": "every program of settings, declarations and evaluations, every arclength", "why_tests_cant": "Histories are unbounded.", "anchors": ["src/core/vehicles/dynamic_model_car.hpp:set_parameter", "src/core/vehicles/dynamic_model_car.hpp:operator()", "src/core/vehicles/dynamic_model.h:add_parameter"]}
{"id": "C102", "title": "A vehicle file is accepted exactly when it is complete and has nothing else", "statement": "The constructor of the F1 car from a document succeeds if and only if the document has every parameter and no other element, and then each parameter has the value in the document; otherwise it throws.", "quantifier": "every document", "why_tests_cant": "Universal over documents.", "anchors": ["src/core/vehicles/dynamic_model_car.h:Dynamic_model_car", "src/core/chassis/chassis_car_3dof.hpp:Chassis_car_3dof", "src/core/chassis/axle_car_3dof.hpp:Axle_car_3dof", "src/core/tire/tire_pacejka.hpp:Tire_pacejka"]}
{"id": "C103", "title": "Every control of a vehicle can be optimised at every node in derivative form", "statement": "When an accepted lap-time problem is solved in derivative form, the optimisation vector and its bounds are built whenever every control optimised at every node has a rate limit, and a vehicle declares a rate limit for each of its controls.", "quantifier": "every vehicle, every accepted request", "why_tests_cant": "Universal over requests; reading a rate limit that is not there is undefined behaviour that often goes unnoticed.", "anchors": ["src/core/applications/optimal_laptime.hpp:compute_derivative", "src/core/vehicles/limebeer2014f1.h:optimal_laptime_derivative_control_bounds"]}
{"id": "C104", "title": "Names and indices of the F1 car's variables say what they are", "statement": "The names reported for the inputs and controls of the F1 car are the documented ones, all different, and the value passed at the position of a name is the one the car uses for that quantity (wheel slips, velocities, loads, road coordinates, steering, throttle, boost, brake bias).", "quantifier": "every input and control vector, both kinds of road", "why_tests_cant": "Universal over values; a swapped index gives a plausible car.", "anchors": ["src/core/vehicles/dynamic_model_car.h:get_state_and_control_names", "src/core/chassis/chassis_car_3dof.hpp:set_state_and_controls", "src/core/chassis/axle_car_3dof.hpp:set_state_and_controls"]}
{"id": "C105", "title": "The equations with derivatives are those of the evaluation", "statement": "equations(inputs, controls, s) returns the states and time derivatives of the car at arclength s, and entry (i,j) of its Jacobians is the derivative of output i with respect to input j.", "quantifier": "every car, track, input, control and arclength", "why_tests_cant": "Universal over reals.", "anchors": ["src/core/vehicles/dynamic_model_car.hpp:equations"]}
{"id": "C106", "title": "A car and its mirror image behave as mirror images", "statement": "Mirroring the car, the track, the inputs and the controls mirrors the states and derivatives; hence a symmetric car going straight on a straight track stays straight.", "quantifier": "every car, track point, input and control", "why_tests_cant": "Universal over reals; sign errors in one of dozens of terms show only in special motions.", "anchors": ["src/core/vehicles/dynamic_model_car.hpp:operator()", "src/core/chassis/chassis_car_3dof.hpp:update", "src/core/chassis/axle_car_3dof.hpp:update"]}
{"id": "C107", "title": "Energy is conserved by the whole car", "statement": "On a flat road the kinetic energy of the car (translation, yaw, wheels) changes exactly by the power of engine and brakes at the wheels, the dissipation that the tyres report and the power of the aerodynamic force.", "quantifier": "every car, track point, input and control", "why_tests_cant": "Universal over reals; couples tyres, axles, chassis and road.", "anchors": ["src/core/vehicles/dynamic_model_car.hpp:operator()", "src/core/chassis/chassis_car_3dof.hpp:update", "src/core/tire/tire.h:get_dissipation"]}
{"id": "C108", "title": "A solution of the steady-state equations is a steady state", "statement": "The steady-state constraints of the F1 car are within their bounds if and only if the car moves with the requested speed and longitudinal and lateral acceleration, all forces, moments and wheel torques are in balance and the slip angles are within the accepted range.", "quantifier": "every car, speed, accelerations and steady-state variables", "why_tests_cant": "Universal over reals.", "anchors": ["src/core/vehicles/limebeer2014f1.h:steady_state_equations", "src/core/vehicles/limebeer2014f1.h:steady_state_constraint_bounds"]}
{"id": "C109", "title": "A car does not depend on how the road is described", "statement": "On a flat road the car on a curvilinear road has the states of the car on a cartesian road with the same heading, and its derivatives with respect to arclength are those with respect to time multiplied by dt/ds; the derivative of the time is dt/ds.", "quantifier": "every car, track point, input and control", "why_tests_cant": "Universal over reals.", "anchors": ["src/core/vehicles/dynamic_model_car.hpp:operator()", "src/core/vehicles/road_curvilinear.hpp:update", "src/core/vehicles/road_cartesian.hpp:update"]}
{"id": "C110", "title": "Steady-state variables survive the round trip", "statement": "get_x of the inputs and controls produced by steady_state_equations returns the variables they were produced from; the other controls keep their defaults.", "quantifier": "every vector of variables", "why_tests_cant": "Universal over reals.", "anchors": ["src/core/vehicles/limebeer2014f1.h:get_x", "src/core/vehicles/limebeer2014f1.h:steady_state_equations"]}
{"id": "C111", "title": "Integral quantities measure what their names say", "statement": "There is one value per name; tyre energies never decrease while the wheels move forward; the engine energy is what the engine gives to wheels, differential and brakes (without the boost); the boost time counts the boost control.", "quantifier": "every car, input and control", "why_tests_cant": "Universal over reals.", "anchors": ["src/core/vehicles/limebeer2014f1.h:compute_integral_quantities"]}
{"id": "C112", "title": "The slip of maximum force is allowed", "statement": "The extra constraints of the F1 car allow every slip angle up to the one at which the tyre gives its maximum lateral force, at every load within the limits of the loads.", "quantifier": "every load within the bounds, every slip angle", "why_tests_cant": "Universal over reals.", "anchors": ["src/core/vehicles/limebeer2014f1.h:optimal_laptime_extra_constraints_bounds"]}
{"id": "C113", "title": "The load transfer is shared as the roll balance says, along the whole lap", "statement": "At the end of every element of a lap whose equations are satisfied, the lateral load transfer of the front axle is the roll balance times the total.", "quantifier": "every lap, flat or elevated", "why_tests_cant": "Universal over meshes; the equation is a differential one on elevated roads, where only averages over an element are imposed.", "anchors": ["src/core/vehicles/limebeer2014f1.h:classify_equations", "src/core/chassis/chassis_car_3dof.hpp:get_state_and_state_derivative", "src/core/applications/optimal_laptime.hpp"]}
{"id": "C114", "title": "The optimiser searches around the starting guess", "statement": "The bounds given to the optimiser for every quantity of every track point are the documented ranges around the guess (100 m, 10 m of height, 30 and 10 degrees, the option limits), whatever the number of points; the guess is within its bounds when it respects the option limits, and every point within the bounds is decoded to quantities within the named ranges.", "quantifier": "every list of points, both layouts, every option", "why_tests_cant": "Unbounded number of points; index arithmetic in 16 quantities.", "anchors": ["src/core/applications/circuit_preprocessor.hpp:Circuit_preprocessor::compute"]}
{"id": "C115", "title": "The heading of a closed circuit closes after one turn", "statement": "In the starting guess of a closed circuit the change of heading over the closing element is no more than half a turn.", "quantifier": "every closed polygon of boundary points", "why_tests_cant": "Universal over all circuits, including those that cross themselves.", "anchors": ["src/core/applications/circuit_preprocessor.hpp:Circuit_preprocessor::compute"]}
{"id": "C116", "title": "A solution of the fitting problem is a track", "statement": "The constraints hold exactly when, over every element and with the closing one included, every state changes by the trapezoidal rule on its rate (position along the heading, angles by their rates, rates and widths by the controls), with one full turn of heading over the lap, and the ends lie on the start and finish lines; the vector of constraints is filled exactly.", "quantifier": "every number of points, open and closed, flat and elevated", "why_tests_cant": "Unbounded number of points.", "anchors": ["src/core/applications/circuit_preprocessor.hpp:Circuit_preprocessor::FG::operator()", "src/core/applications/circuit_preprocessor.h:Circuit_preprocessor::FG::equations"]}
{"id": "C117", "title": "The fit of a closed circuit does not depend on where it starts", "statement": "The cost minimised is the integral over all elements alike of the weighted squared distances and controls, so that starting the same closed circuit at another point gives the same cost.", "quantifier": "every circuit, weight and scale", "why_tests_cant": "Unbounded number of points, real-valued.", "anchors": ["src/core/applications/circuit_preprocessor.hpp:Circuit_preprocessor::FG::operator()"]}
{"id": "C118", "title": "Arclengths are consistent with the length of the track", "statement": "The arclengths of the result start at zero, increase strictly, and are those of the centreline estimate scaled by one factor; so is the track length, which on a closed circuit is larger than all of them and on an open one is the last.", "quantifier": "every mesh and factor", "why_tests_cant": "Unbounded number of points.", "anchors": ["src/core/applications/circuit_preprocessor.hpp:Circuit_preprocessor::compute"]}
{"id": "C119", "title": "Reported boundary errors are consistent", "statement": "The reported maximum error is attained by a point and exceeded by none; the reported mean square error is never larger; both are equal to the distance when it is constant.", "quantifier": "every list of distances and arclengths", "why_tests_cant": "Unbounded number of points, real-valued.", "anchors": ["src/core/applications/circuit_preprocessor.hpp:Circuit_preprocessor::compute"]}
{"id": "C120", "title": "Geographic coordinates are mapped to the plane reversibly", "statement": "The first right point is the origin; east is +x, north is -y, up is -z; longitude, latitude and altitude of every point are recovered from its position.", "quantifier": "every list of coordinates away from the poles", "why_tests_cant": "Universal over reals.", "anchors": ["src/core/applications/circuit_preprocessor.hpp:Circuit_preprocessor::transform_coordinates"]}
{"id": "C121", "title": "The starting guess of an elevated track has a proper frame", "statement": "The frame from which the angles are computed is orthonormal and right-handed, its first axis points to the next point, its second towards the right boundary.", "quantifier": "every step and vector to the right boundary that are not parallel", "why_tests_cant": "Universal over reals.", "anchors": ["src/core/applications/circuit_preprocessor.hpp:Circuit_preprocessor::compute"]}
{"id": "C122", "title": "The track passes through the preprocessed points", "statement": "A track built from a preprocessed circuit returns at the arclength of every preprocessed point exactly its position, heading and curvature (and pitch and roll with elevation, zero without), and as limits its widths plus the kerbs there.", "quantifier": "every circuit with strictly increasing arclengths, any number of points", "why_tests_cant": "Unbounded number of points, real-valued data.", "anchors": ["src/core/vehicles/track_by_polynomial.h:Track_by_polynomial::Track_by_polynomial", "src/core/vehicles/track_by_polynomial.h:Track_by_polynomial::operator()"]}
{"id": "C123", "title": "A closed track closes", "statement": "The track built from a closed circuit has the length of the circuit and the same position, angles, curvatures and limits at its end as at its start; an open one ends at the last arclength.", "quantifier": "every circuit, any number of points", "why_tests_cant": "Unbounded number of points, real-valued data.", "anchors": ["src/core/vehicles/track_by_polynomial.h:Track_by_polynomial::Track_by_polynomial", "src/core/vehicles/track_by_polynomial.h:Track_by_polynomial::get_total_length"]}
{"id": "C124", "title": "Heading and curvature of a track agree", "statement": "Over every element of the track the change of heading is the length of the element times the mean curvature, the closing element of a closed circuit included.", "quantifier": "every circuit that satisfies the fitting constraints", "why_tests_cant": "Quantified over all circuits; sample circuits only test open elements.", "anchors": ["src/core/vehicles/track_by_polynomial.h:Track_by_polynomial::Track_by_polynomial"]}
{"id": "C125", "title": "Rates of pitch and roll agree with pitch and roll", "statement": "On an elevated track the rates of pitch and roll reported are the slopes of the pitch and roll reported.", "quantifier": "every elevated circuit", "why_tests_cant": "Quantified over all circuits.", "anchors": ["src/core/vehicles/track_by_polynomial.h:Track_by_polynomial::Track_by_polynomial"]}
{"id": "C126", "title": "Heading and curvature of a flat curve are its geometric ones", "statement": "Heading and curvature computed from the derivatives of a planar curve are the direction of its velocity and the rate of turn per unit length; a curve that leaves the plane is rejected.", "quantifier": "every differentiable planar curve and every list of coefficients", "why_tests_cant": "Universal over differentiable curves.", "anchors": ["src/core/vehicles/track_by_polynomial.h:Track_by_polynomial::Track_by_polynomial", "src/core/vehicles/track_by_polynomial.h:Track_by_polynomial::has_elevation"]}
{"id": "C127", "title": "A track knows whether it has elevation", "statement": "A track built from a circuit without elevation in the plane z = 0 reports none; one built with elevation reports it as soon as one point has pitch, roll or altitude beyond the tolerance.", "quantifier": "every circuit and tolerance", "why_tests_cant": "Unbounded number of points.", "anchors": ["src/core/vehicles/track_by_polynomial.h:Track_by_polynomial::has_elevation"]}
{"id": "C128", "title": "The mesh covers the track", "statement": "If the requested element sizes are positive and at most a fifth of the track, the mesh is found, starts at 0, increases strictly, ends exactly at the end and every position is the curve's at its arclength; a mesh given by the number of elements has them all equal.", "quantifier": "every size request, maximum ratio at least 1 and length", "why_tests_cant": "Termination and exactness for all inputs; the loop is unbounded.", "anchors": ["src/core/applications/circuit_preprocessor.hpp:Circuit_preprocessor::compute_averaged_centerline"]}
{"id": "C129", "title": "Adjacent elements respect the maximum ratio", "statement": "Two adjacent elements of the mesh differ at most by the maximum ratio.", "quantifier": "every size request, ratio and length", "why_tests_cant": "Unbounded number of elements.", "anchors": ["src/core/applications/circuit_preprocessor.hpp:Circuit_preprocessor::compute_averaged_centerline"]}
{"id": "C130", "title": "The size of elements changes at the breakpoints", "statement": "At every point of the track the element size requested is that of the last breakpoint reached before it.", "quantifier": "every list of breakpoints and point", "why_tests_cant": "Universal over breakpoints and points.", "anchors": ["src/core/applications/circuit_preprocessor.hpp:Circuit_preprocessor::compute_ds_for_coordinates", "src/core/applications/circuit_preprocessor.hpp:Circuit_preprocessor::who_is_ahead"]}
{"id": "C131", "title": "Trimming an open track keeps what is between start and finish", "statement": "A boundary trimmed to start and finish consists of the point closest to the start, all coordinates of the boundary strictly between it and the point closest to the finish, in order, and the latter, on the boundary.", "quantifier": "every boundary, start and finish", "why_tests_cant": "Unbounded number of coordinates.", "anchors": ["src/core/applications/circuit_preprocessor.hpp:Circuit_preprocessor::trim_coordinates"]}
{"id": "C132", "title": "Start and finish of an open track are checked", "statement": "A start or finish between the two boundaries is accepted, one that is not is rejected; a finish behind the start is rejected.", "quantifier": "every pair of boundaries, start and finish", "why_tests_cant": "Universal over real coordinates.", "anchors": ["src/core/applications/circuit_preprocessor.hpp:Circuit_preprocessor::trim_coordinates"]}
{"id": "C133", "title": "Stations of a minimum curvature path are checked", "statement": "A list of stations is accepted exactly if it starts at the start line (closed) or not before it (open), ends before the finish line, and its stations increase; anything else is rejected.", "quantifier": "every list of stations", "why_tests_cant": "Unbounded lists of reals.", "anchors": ["src/core/applications/minimum_curvature_path.hpp:Minimum_curvature_path::compute_track_by_polynomial"]}
{"id": "C134", "title": "Starting point and bounds of a minimum curvature path describe the circuit", "statement": "For accepted stations the vectors have the advertised size; the starting point is the circuit itself with the distances between stations, the bounds are the allowed ranges of the same quantities at the same points; they leave room for a path exactly when the stations do not go back and the edges do not cross.", "quantifier": "every circuit, list of stations, closed and open", "why_tests_cant": "The layout is a running index; unbounded number of stations.", "anchors": ["src/core/applications/minimum_curvature_path.hpp:Minimum_curvature_path::compute_track_by_polynomial", "src/core/applications/minimum_curvature_path.hpp:Minimum_curvature_path::Fitness_fcn_by_polynomial::operator()"]}
{"id": "C135", "title": "A minimum curvature path stays on the track", "statement": "Every path within the bounds lies between the left and the right edge of the track at each of its points.", "quantifier": "every circuit, track made of arcs and path within the bounds", "why_tests_cant": "Universal over reals.", "anchors": ["src/core/applications/minimum_curvature_path.hpp:Minimum_curvature_path::compute_track_by_polynomial", "src/core/applications/minimum_curvature_path.hpp:Minimum_curvature_path::compute_track_by_arcs"]}
{"id": "C136", "title": "The constraints of a minimum curvature path are those of a path", "statement": "The constraints are zero exactly when from each point to the next the position advances along the direction of travel and the angles by their rates, with one full turn in the direction of the circuit over a closed lap; cost and constraints fill their vector.", "quantifier": "every path, closed and open, any number of points", "why_tests_cant": "Unbounded number of points, real-valued.", "anchors": ["src/core/applications/minimum_curvature_path.hpp:Minimum_curvature_path::Fitness_fcn_by_polynomial::operator()"]}
{"id": "C137", "title": "The cost of a minimum curvature path is the integral of its squared curvature", "statement": "The cost is the trapezoidal integral of the squared rotation rate of the path over all its elements; on a closed circuit it does not depend on where the circuit starts.", "quantifier": "every path, closed and open, any number of points", "why_tests_cant": "Unbounded number of points; sample circuits have one start.", "anchors": ["src/core/applications/minimum_curvature_path.hpp:Minimum_curvature_path::Fitness_fcn_by_polynomial::operator()"]}
{"id": "C138", "title": "On a track made of arcs the cost is periodic", "statement": "The cost on a track made of arcs is the sum over equally spaced points of the criterion times the spacing, with centred differences of a periodic lateral displacement.", "quantifier": "every track and number of points", "why_tests_cant": "Unbounded number of points.", "anchors": ["src/core/applications/minimum_curvature_path.hpp:Minimum_curvature_path::Fitness_fcn::operator()"]}
{"id": "C139", "title": "On a track made of arcs the criterion ranks lines by curvature", "statement": "The criterion minimised on a track made of arcs is larger for a line of larger curvature.", "quantifier": "every track, point and lateral displacement", "why_tests_cant": "Universal over reals.", "anchors": ["src/core/applications/minimum_curvature_path.hpp:Minimum_curvature_path::Fitness_fcn::operator()"]}
{"id": "C140", "title": "A steady state reported as solved is one", "statement": "Whatever the optimiser does, if a result of the steady-state solvers is reported as solved then it is a steady state of the vehicle at the reported speed and accelerations: its equations hold within the tolerance of the optimiser, and inputs, controls and rates of change are those of the vehicle there; the speed and the prescribed accelerations are those requested.", "quantifier": "every vehicle, optimiser that satisfies the constraints when it reports success, speed and acceleration, with automatic differentiation and numerical Jacobians", "why_tests_cant": "Universal over vehicles, units and optimisers; tests run one vehicle with one optimiser.", "anchors": ["src/core/applications/steady_state.hpp:Steady_state::solve", "src/core/applications/steady_state.hpp:Steady_state::solve_max_lat_acc", "src/core/applications/steady_state.hpp:Steady_state::solve_max_lon_acc"]}
{"id": "C141", "title": "The g-g diagram has the requested points", "statement": "The diagram has the requested number of points on both branches, at the same lateral accelerations from zero to the maximum, where both branches meet; each solved point is a steady state, and the upper branch is not below the lower one.", "quantifier": "every vehicle, optimiser, speed and number of points", "why_tests_cant": "Unbounded number of points.", "anchors": ["src/core/applications/steady_state.hpp:Steady_state::gg_diagram"]}
{"id": "C142", "title": "The range of the search does not limit the accelerations", "statement": "A maximum acceleration reported as solved is the maximum of the vehicle: it is not at the limit of the range in which it was searched.", "quantifier": "every vehicle, optimiser and speed", "why_tests_cant": "Universal over vehicles; sample vehicles stay within the initial ranges.", "anchors": ["src/core/applications/steady_state.hpp:Steady_state::solve_max_lat_acc", "src/core/applications/steady_state.hpp:Steady_state::solve_max_lon_acc"]}
{"id": "C143", "title": "Lateral accelerations out of reach are rejected", "statement": "The longitudinal limits at a lateral acceleration larger than the vehicle can reach, in either direction, are rejected with an exception.", "quantifier": "every vehicle, optimiser, speed and lateral acceleration", "why_tests_cant": "Universal over reals.", "anchors": ["src/core/applications/steady_state.hpp:Steady_state::solve_max_lon_acc"]}
{"id": "C144", "title": "Refining the g-g diagram does not change its points", "statement": "Two diagrams with different numbers of points agree at the lateral accelerations they have in common.", "quantifier": "every vehicle, optimiser, speed and pair of numbers of points", "why_tests_cant": "Two unbounded runs of a loop that carries state between points.", "anchors": ["src/core/applications/steady_state.hpp:Steady_state::gg_diagram"]}
{"id": "C145", "title": "The steady-state solvers are defined", "statement": "With an optimiser that returns vectors of the size it gets: the steady state and the maximum lateral acceleration are defined at every speed, the longitudinal limits up to the maximum lateral acceleration if it is not zero, and the diagram for any positive number of points if it is positive.", "quantifier": "every vehicle, optimiser, speed, acceleration and number of points", "why_tests_cant": "Universal over vehicles and optimisers; undefined behaviour is invisible in tests.", "anchors": ["src/core/applications/steady_state.hpp:Steady_state::solve", "src/core/applications/steady_state.hpp:Steady_state::solve_max_lat_acc", "src/core/applications/steady_state.hpp:Steady_state::solve_max_lon_acc", "src/core/applications/steady_state.hpp:Steady_state::gg_diagram"]}
{"id": "C146", "title": "A saved lap is the lap that is read back", "statement": "A computed lap that is saved to a file and read from it has the same points, arclengths, inputs, controls, counters of controls, trajectory and multipliers, the same laptime and the same dissipations of the controls. The file holds those numbers under the names of the variables.", "quantifier": "every vehicle with distinct names of variables, every computed lap of any number of points, open or closed, direct or through derivatives, every choice of the controls", "why_tests_cant": "The number of points, controls and values is unbounded; a test compares one lap.", "anchors": ["src/core/applications/detail/optimal_laptime_data.h:Optimal_laptime_data::xml", "src/core/applications/detail/optimal_laptime_data.h:Optimal_laptime_data::construct_from_xml"]}
{"id": "C147", "title": "A damaged file is rejected by an exception", "statement": "Reading a file with an unrecognised attribute, a number of points out of range, a missing element, a control of unrecognised type or an input with fewer numbers than points raises an exception; a file that is read had none of these, and the controls read from it passed the validation.", "quantifier": "every document, vehicle and object read into", "why_tests_cant": "Universal over documents; reading past the end of a vector is invisible in tests.", "anchors": ["src/core/applications/detail/optimal_laptime_data.h:Optimal_laptime_data::construct_from_xml"]}
{"id": "C148", "title": "When saving a lap is defined", "statement": "Saving is defined exactly for laps with at least one point, arclength and multiplier of each kind, values of all controls that are optimised, and a trajectory of enough points; in particular a lap that was never computed cannot be saved.", "quantifier": "every vehicle and every content of the result", "why_tests_cant": "Universal over contents; undefined behaviour is invisible in tests.", "anchors": ["src/core/applications/detail/optimal_laptime_data.h:Optimal_laptime_data::xml"]}
{"id": "C149", "title": "The lap read from a file is determined by the file", "statement": "Reading a file gives the same lap whatever the object it is read into contained before, and saving it again gives the same file.", "quantifier": "every document and pair of objects; for saving again, every computed lap", "why_tests_cant": "Universal over documents and previous contents; tests read into fresh objects whose uninitialised members happen to have some value.", "anchors": ["src/core/applications/detail/optimal_laptime_data.h:Optimal_laptime_data::xml", "src/core/applications/detail/optimal_laptime_data.h:Optimal_laptime_data::construct_from_xml"]}
{"id": "C150", "title": "A saved circuit is the circuit that is read back", "statement": "A computed circuit that is saved to a file and read from it is the same circuit: same points, arclengths, boundaries, measured boundaries, angles, curvatures, distances to the limits, rates, kerbs, origin, errors, options and direction.", "quantifier": "every computed circuit of any number of points, with or without elevation, open or closed, with or without kerbs", "why_tests_cant": "The number of points is unbounded; a test compares one circuit, and only the members it names.", "anchors": ["src/core/applications/circuit_preprocessor.hpp:Circuit_preprocessor::xml", "src/core/applications/circuit_preprocessor.hpp:Circuit_preprocessor::Circuit_preprocessor(Xml_document&)", "src/core/vehicles/kerb.h:Kerb::xml"]}
{"id": "C151", "title": "A circuit that was read can be saved again", "statement": "Saving a circuit that was read from the file of a computed circuit is defined.", "quantifier": "every computed circuit; for the failure, every file of two dimensions", "why_tests_cant": "Universal over files; undefined behaviour is invisible in tests.", "anchors": ["src/core/applications/circuit_preprocessor.hpp:Circuit_preprocessor::xml", "src/core/applications/circuit_preprocessor.hpp:Circuit_preprocessor::Circuit_preprocessor(Xml_document&)"]}
{"id": "C152", "title": "A damaged circuit file is rejected by an exception", "statement": "Reading a file with an unrecognised format, type or number of dimensions, a number of points out of range, a missing element, kerbs on one side only, or vectors shorter than the number of points raises an exception; a file with none of these and no blank is read.", "quantifier": "every document", "why_tests_cant": "Universal over documents; reading past the end of a vector is invisible in tests.", "anchors": ["src/core/applications/circuit_preprocessor.hpp:Circuit_preprocessor::Circuit_preprocessor(Xml_document&)", "src/core/vehicles/kerb.h:Kerb::Kerb(Xml_element&)"]}
{"id": "C153", "title": "When saving a circuit is defined", "statement": "Saving is defined exactly for circuits with at least one point whose vectors all have an entry and at most one entry less than points, and with measured boundaries; it never raises an exception.", "quantifier": "every content of a circuit", "why_tests_cant": "Universal over contents; undefined behaviour is invisible in tests.", "anchors": ["src/core/applications/circuit_preprocessor.hpp:Circuit_preprocessor::xml"]}
{"id": "C154", "title": "The track of a saved circuit is the track of the computed circuit", "statement": "Building the track from the circuit that was read from a file gives the same track as building it from the circuit that was saved, if the numbers of its kerbs have no more than six decimals.", "quantifier": "every computed circuit, with or without elevation, open or closed", "why_tests_cant": "Universal over circuits; a test compares some points of one track.", "anchors": ["src/core/applications/circuit_preprocessor.hpp:Circuit_preprocessor::xml", "src/core/applications/circuit_preprocessor.hpp:Circuit_preprocessor::Circuit_preprocessor(Xml_document&)", "src/core/vehicles/track_by_polynomial.hpp:Track_by_polynomial::Track_by_polynomial(const Circuit_preprocessor&)"]}
{"id": "C155", "title": "The momentum of the kart changes by the forces on it", "statement": "While the kart follows its equations, its centre of mass moves with the velocities among its inputs, and its momentum changes by the sum of the forces of the tyres, the air and the weight, in a frame at rest.", "quantifier": "every kart, every state and controls, every motion that follows the equations", "why_tests_cant": "Universal over states and a law for the derivatives; a test compares numbers at one state.", "anchors": ["src/core/chassis/chassis_car_6dof.hpp:Chassis_car_6dof::update", "src/core/chassis/chassis_car_6dof.h:Chassis_car_6dof"]}
{"id": "C156", "title": "The angular momentum of the kart changes by the moment of the forces", "statement": "While the kart follows its equations, its angular momentum changes by the moment of all forces about its centre of mass, to first order in roll and pitch.", "quantifier": "every kart symmetric about its middle plane, every motion that follows the equations", "why_tests_cant": "Universal over states and a law for the derivatives.", "anchors": ["src/core/chassis/chassis_car_6dof.hpp:Chassis_car_6dof::update", "src/core/chassis/chassis_car_6dof.hpp:Chassis_car_6dof::Euler_m", "src/core/chassis/chassis_car_6dof.hpp:Chassis_car_6dof::Euler_lhs"]}
{"id": "C157", "title": "The accelerations of the kart do not depend on the solver of linear systems", "statement": "For every inertia of a rigid body and every attitude within the limits, the equations have one solution: solvers that solve solvable systems give the same derivatives.", "quantifier": "every kart symmetric about its middle plane, every state within the limits, every pair of solvers", "why_tests_cant": "Universal over inertias, attitudes and solvers.", "anchors": ["src/core/chassis/chassis_car_6dof.hpp:Chassis_car_6dof::update", "src/core/chassis/chassis_car_6dof.hpp:Chassis_car_6dof::Euler_m", "src/core/vehicles/lot2016kart.h:lot2016kart"]}
{"id": "C158", "title": "The tyres of the kart move with its wheels", "statement": "The velocity from which slips are computed is that of the point of the kart where the wheel is, in axes turned with the wheel; the load comes from the deformation of the tyre and from the rate at which it changes; the contact point is on the ground.", "quantifier": "every kart, every motion that follows the equations, each of the four wheels", "why_tests_cant": "Universal over motions and about rates of change.", "anchors": ["src/core/chassis/axle_car_6dof.hpp:Axle_car_6dof::update", "src/core/tire/tire.hpp:Tire::update"]}
{"id": "C159", "title": "The front wheels of the kart roll freely", "statement": "The front tyres have no longitudinal slip and no longitudinal force.", "quantifier": "every kart and state in which the wheels move forwards or backwards", "why_tests_cant": "Universal over states; and over the text of the type in the parameters.", "anchors": ["src/core/chassis/axle_car_6dof.hpp:Axle_car_6dof::update", "src/core/tire/tire_pacejka.hpp:Tire_pacejka::update_self", "src/core/tire/tire.h:Tire::get_type"]}
{"id": "C160", "title": "A steady state of the kart has the accelerations that were asked for", "statement": "A solution of the steady-state equations has the requested accelerations along and across the direction of travel, both as reported and from the forces, and no acceleration vertically or in roll, pitch or yaw.", "quantifier": "every kart, speed, pair of accelerations and solution", "why_tests_cant": "Universal over solutions of nonlinear equations.", "anchors": ["src/core/vehicles/lot2016kart.h:Dynamic_model::steady_state_equations", "src/core/chassis/chassis_car_6dof.hpp:Chassis_car_6dof::update"]}
{"id": "C161", "title": "A steady state of the kart is held", "statement": "In a steady state without longitudinal acceleration the derivatives of all velocities, of the yaw rate, of the attitude and of the speed of the rear axle vanish.", "quantifier": "every kart, speed, lateral acceleration and solution", "why_tests_cant": "Universal over solutions of nonlinear equations.", "anchors": ["src/core/vehicles/lot2016kart.h:Dynamic_model::steady_state_equations", "src/core/chassis/axle_car_6dof.hpp:Axle_car_6dof::update"]}
{"id": "C162", "title": "The variables of a steady state of the kart are recovered", "statement": "The variables of a steady state are recovered from the inputs and controls built from them, and these do not depend on what was in memory.", "quantifier": "every set of variables, speed and acceleration", "why_tests_cant": "Universal over values; tests see zeroed memory.", "anchors": ["src/core/vehicles/lot2016kart.h:Dynamic_model::get_x", "src/core/vehicles/lot2016kart.h:Dynamic_model::steady_state_equations"]}
{"id": "C163", "title": "Inputs and controls of the kart", "statement": "All inputs and controls of the kart have documented distinct names, and the input of a name is the quantity named; each has a default within its bounds; steady states have a first guess within their bounds, and bounds within those of the inputs and controls; the limits of the rear axle allow the torques it is meant for.", "quantifier": "every input and control, both kinds of road, direct torque or engine", "why_tests_cant": "Universal over contents of memory and values.", "anchors": ["src/core/vehicles/lot2016kart.h:lot2016kart", "src/core/chassis/chassis_car_6dof.hpp:Chassis_car_6dof::set_state_and_control_names", "src/core/chassis/axle_car_6dof.hpp:Axle_car_6dof::set_state_and_control_names"]}
{"id": "C164", "title": "The kart refuses tracks with elevation", "statement": "A kart can neither be built on nor moved to a track with elevation: an exception is raised and the kart stays as it was.", "quantifier": "every pair of tracks", "why_tests_cant": "Universal over tracks; the state after an exception is rarely tested.", "anchors": ["src/core/vehicles/lot2016kart.h:Dynamic_model::change_track", "src/core/vehicles/lot2016kart.h:Dynamic_model::Dynamic_model"]}
{"id": "C165", "title": "The reported acceleration of the kart is absolute", "statement": "The acceleration reported for the kart is the rate of change of its velocity in a frame at rest, as documented.", "quantifier": "every kart and every motion that follows the equations", "why_tests_cant": "About a derivative along all motions.", "anchors": ["src/core/chassis/chassis_car_6dof.h:Chassis_car_6dof::get_acceleration"]}
{"id": "C166", "title": "States and inputs of the kart", "statement": "The states of the kart are its inputs in the same order, and the inputs are recovered from the states.", "quantifier": "every kart, inputs, controls and both kinds of road", "why_tests_cant": "Universal over values.", "anchors": ["src/core/vehicles/dynamic_model_car.hpp:Dynamic_model_car::transform_states_to_inputs", "src/core/chassis/chassis_car_6dof.hpp:Chassis_car_6dof::get_state_and_state_derivative"]}
{"id": "C167", "title": "Steady states of the kart may be part of an optimal lap", "statement": "A steady state within its bounds satisfies the constraints on the slips of all tyres of an optimal lap.", "quantifier": "every kart, speed, pair of accelerations and solution", "why_tests_cant": "Universal over solutions of nonlinear equations.", "anchors": ["src/core/vehicles/lot2016kart.h:Dynamic_model::optimal_laptime_extra_constraints", "src/core/vehicles/lot2016kart.h:Dynamic_model::steady_state_equations"]}
{"id": "C168", "title": "The mirror image of the kart does the mirror image", "statement": "The kart with left and right exchanged, driven from the mirrored state with reversed steering on the mirrored road, has the mirrored derivatives; a symmetric kart that goes straight has no lateral, yaw or roll acceleration.", "quantifier": "every kart, inputs, controls and both kinds of road", "why_tests_cant": "Universal over karts and states; sign errors cancel at the symmetric states that tests use.", "anchors": ["src/core/chassis/chassis_car_6dof.hpp:Chassis_car_6dof::update", "src/core/chassis/axle_car_6dof.hpp:Axle_car_6dof::update", "src/core/tire/tire_pacejka.hpp:Tire_pacejka::update_self"]}
{"id": "C169", "title": "The kart does the same along a track and in the plane", "statement": "A kart that follows the equations along a flat track, with the arclength as variable, moves in the plane as the equations of the cartesian road say, with the time as variable, and the derivative of its time state relates both.", "quantifier": "every kart, flat track and motion along it with forward velocity along the track", "why_tests_cant": "About derivatives along all motions, of two different models.", "anchors": ["src/core/vehicles/road_curvilinear.hpp:Road_curvilinear::update", "src/core/vehicles/road_cartesian.hpp:Road_cartesian::update", "src/core/vehicles/dynamic_model_car.hpp:Dynamic_model_car::operator()"]}
{"id": "C170", "title": "The options of an optimal lap take the values given", "statement": "Each option of an optimal lap (warm start, saving it, the file to write, the print level, closed or open, the scheme, the sensitivity analysis, the requested outputs) has the value given in the options and its default otherwise; empty options mean the defaults.", "quantifier": "every document of options, vehicle and table of vectors", "why_tests_cant": "Universal over documents; tests set a few options.", "anchors": ["src/main/c/fastestlapc.cpp:Optimal_laptime_configuration"]}
{"id": "C171", "title": "The initial speed of the lap is the one given", "statement": "The speed of the steady state an optimal lap starts from is the one given as initial speed, and 50 km/h if none is given.", "quantifier": "every document of options and vehicle", "why_tests_cant": "Universal over documents; a wrong initial speed still converges to the same lap.", "anchors": ["src/main/c/fastestlapc.cpp:Optimal_laptime_configuration"]}
{"id": "C172", "title": "The control variables are optimised as configured", "statement": "Each control has the type, dissipation and mesh of the last entry given for it, and those of the vehicle otherwise; entries for unknown controls or with unknown types are refused.", "quantifier": "every document of options, vehicle and control", "why_tests_cant": "Universal over documents, with entries repeated and in any order.", "anchors": ["src/main/c/fastestlapc.cpp:Optimal_laptime_configuration"]}
{"id": "C173", "title": "The bounds and integral constraints are those given", "statement": "The bounds of each variable are the last ones given for it, and those of the vehicle otherwise; the integral constraints are those given, in order; the optimisation uses them.", "quantifier": "every document of options, vehicle and variable", "why_tests_cant": "Universal over documents; tests never check bounds that are not active.", "anchors": ["src/main/c/fastestlapc.cpp:Optimal_laptime_configuration", "src/main/c/fastestlapc.cpp:compute_optimal_laptime"]}
{"id": "C174", "title": "Exactly the documented options are accepted", "statement": "Options are accepted exactly when they are as documented: names of variables and quantities known to the vehicle, values that can be read, bounds given by children lower_bound and upper_bound.", "quantifier": "every document of options and vehicle", "why_tests_cant": "Universal over documents, including malformed ones.", "anchors": ["src/main/c/fastestlapc.cpp:Optimal_laptime_configuration"]}
{"id": "C175", "title": "An open lap has a complete initial condition", "statement": "An open lap is only accepted with an initial condition, whose vectors give the value of every input and control; vectors of other sizes are refused.", "quantifier": "every document of options, vehicle, table of vectors and contents of memory", "why_tests_cant": "Universal over contents of memory.", "anchors": ["src/main/c/fastestlapc.cpp:Optimal_laptime_configuration"]}
{"id": "C176", "title": "The optimisation starts from the configured controls at the steady state", "statement": "Each control variable handed to the optimisation has the configured type and size and starts from the steady state at every point; they pass the checks of the optimisation exactly when no full-mesh dissipation is negative.", "quantifier": "every configuration, number of points, steady state and point", "why_tests_cant": "Universal over sizes and configurations.", "anchors": ["src/main/c/fastestlapc.cpp:construct_control_variables", "src/main/c/fastestlapc.cpp:compute_optimal_laptime"]}
{"id": "C177", "title": "An open lap starts from the given state and controls", "statement": "The first point of an open lap has the given inputs and controls; a lap without points is refused.", "quantifier": "every configuration, list of points and initial condition", "why_tests_cant": "Universal over sizes and configurations.", "anchors": ["src/main/c/fastestlapc.cpp:compute_optimal_laptime"]}
{"id": "C178", "title": "The vectors returned by an optimal lap are those of the lap", "statement": "Each requested variable is returned as a vector with one entry per point: the arclength, the input, the control or the output of the vehicle with that name at the point; unknown variables are refused.", "quantifier": "every lap, list of points and list of variables", "why_tests_cant": "Universal over sizes and names.", "anchors": ["src/main/c/fastestlapc.cpp:compute_optimal_laptime"]}
{"id": "C179", "title": "A warm start optimises what is asked for", "statement": "An optimal lap with warm start is computed on the points given, with the controls and the kind of lap configured, starting from the saved lap; the returned arclength is that of the returned lap; without a saved lap it is refused.", "quantifier": "every saved lap, configuration and list of points", "why_tests_cant": "Universal over histories; tests warm-start with the same settings.", "anchors": ["src/main/c/fastestlapc.cpp:compute_optimal_laptime", "src/main/c/fastestlapc.cpp:get_warm_start"]}
{"id": "C180", "title": "The returned sensitivities are the derivatives of the returned vectors", "statement": "The derivative returned for each variable, parameter and point is that of the lap with respect to the parameter.", "quantifier": "every lap, variable, parameter and point", "why_tests_cant": "Universal over variables and parameters; tests look at the velocity.", "anchors": ["src/main/c/fastestlapc.cpp:compute_optimal_laptime"]}
{"id": "C181", "title": "The rear axle of the kart turns by the work done on it", "statement": "The kinetic energy of the rear axle of the kart changes by the power of engine and brakes and of the forces of the road on both rear wheels; engine and brakes give no more than the power of the engine at the throttle, and exactly that without braking.", "quantifier": "every kart, state, controls and motion that follows the equations", "why_tests_cant": "About a derivative along all motions.", "anchors": ["src/core/chassis/axle_car_6dof.hpp:Axle_car_6dof::update", "src/core/chassis/axle_car_6dof.hpp:Axle_car_6dof::set_throttle_and_omega"]}
{"id": "C182", "title": "The force of the air on the kart", "statement": "The air pushes the kart along the velocity of the wind relative to it with 1/2 rho cd A times its square, and vertically with 1/2 rho cl A times the square of its component along the kart, whatever direction the kart has.", "quantifier": "every kart, velocity, direction and wind", "why_tests_cant": "Universal over directions; tests use no wind.", "anchors": ["src/core/chassis/chassis_car_6dof.hpp:Chassis_car_6dof::update", "src/core/chassis/chassis.hpp:Chassis::get_aerodynamic_force"]}
{"id": "C183", "title": "The options of the circuit preprocessor take the values given", "statement": "When circuit_preprocessor accepts its options, the two boundary files, whether the circuit is closed, the XML file to write, the track name and the output prefix are those of the options; every weight and limit of the optimisation has the value its text reads as, or its documented default when absent, whatever else is given. Options are accepted exactly when everything mandatory is present and every given value is readable.", "quantifier": "every XML options document and every way texts read as numbers", "why_tests_cant": "The options are independent elements: universal over which of them are present.", "anchors": ["src/main/c/fastestlapc.cpp:Circuit_preprocessor_configuration", "src/main/c/fastestlapc.cpp:circuit_preprocessor", "src/core/applications/circuit_preprocessor.h:Circuit_preprocessor::Options"]}
{"id": "C184", "title": "Open and closed circuits are both computed", "statement": "The circuit delivered by circuit_preprocessor is the one computed from the left and right files with the given options and mesh, for closed circuits and for open circuits (is_closed false).", "quantifier": "every options document, all boundary files and every result of the optimisation", "why_tests_cant": "Universal over documents; no test asks for an open circuit through this interface.", "anchors": ["src/main/c/fastestlapc.cpp:circuit_preprocessor", "src/main/c/fastestlapc.cpp:Circuit_preprocessor_configuration", "src/core/applications/circuit_preprocessor.h:Circuit_preprocessor"]}
{"id": "C185", "title": "The mesh of the circuit is the one asked for", "statement": "In mode equally-spaced the circuit has the number of elements given; in mode refined it uses the distribution of element sizes given. A number of elements that makes no sense is refused.", "quantifier": "every options document and every number of elements", "why_tests_cant": "Covers negative numbers, which tests do not try.", "anchors": ["src/main/c/fastestlapc.cpp:Circuit_preprocessor_configuration"]}
{"id": "C186", "title": "The vectors returned by circuit_preprocessor are those of the circuit", "statement": "After circuit_preprocessor succeeds, the track is stored under its name and each output vector (arclength, centerline, boundaries, measured boundaries, curvature, widths) is stored under the prefix and its name with exactly the values of the circuit; if a file was asked for it was written with this circuit.", "quantifier": "every circuit, prefix and state of the stored variables", "why_tests_cant": "Universal over the number of points of the files, which need not be that of the circuit.", "anchors": ["src/main/c/fastestlapc.cpp:circuit_preprocessor", "src/core/applications/circuit_preprocessor.hpp:Circuit_preprocessor"]}
{"id": "C187", "title": "A circuit computation that fails leaves the stored variables as they were", "statement": "When circuit_preprocessor throws, no track and no vector has been added or changed.", "quantifier": "every options document, circuit and state of the stored variables", "why_tests_cant": "Universal over the point of failure.", "anchors": ["src/main/c/fastestlapc.cpp:circuit_preprocessor"]}
{"id": "C188", "title": "Evaluations of the lap problem do not depend on earlier ones", "statement": "Whatever trial laps the optimiser evaluated before, the cost and constraints it gets for a trial lap are those a fresh computation gives for it, and no evaluation fails.", "quantifier": "every accepted request, every vehicle and every finite sequence of evaluations of any length", "why_tests_cant": "A statement about all histories of an object that keeps state between calls.", "anchors": ["src/core/applications/optimal_laptime.hpp:Optimal_laptime::FG_direct::operator()", "src/core/applications/optimal_laptime.hpp:Optimal_laptime::FG_derivative::operator()", "src/core/applications/optimal_laptime.hpp:Optimal_laptime::compute"]}
{"id": "C189", "title": "When an optimal-laptime computation returns a lap", "statement": "A request that is accepted is handed to the optimiser (unless warm-start multipliers have a wrong size, which is an exception); every other request ends in an exception. A lap is then returned exactly when the optimiser converges or failures are tolerated (throw_if_fail false); otherwise an exception is thrown. The lap carries the verdict, the solution and the multipliers of the optimiser. Nothing is undefined on the way.", "quantifier": "every request, vehicle and optimiser that returns vectors of the size it is given", "why_tests_cant": "Universal over optimisers, convergent or not, and over the sizes of mesh and controls.", "anchors": ["src/core/applications/optimal_laptime.hpp:Optimal_laptime::compute_direct", "src/core/applications/optimal_laptime.hpp:Optimal_laptime::compute_derivative", "src/core/applications/optimal_laptime.hpp:Optimal_laptime::export_solution", "src/core/applications/optimal_laptime.h:Optimal_laptime::Options::throw_if_fail"]}
{"id": "C190", "title": "The lap that is returned is consistent and feasible", "statement": "The times of the nodes, the lap time and the integral quantities of a returned lap are those of its own inputs and controls over the mesh of the request, converged or not. The clock starts at zero on a closed track; otherwise at the time of the first requested node, and the lap starts with the inputs and controls given there. When the optimiser reports success the lap obeys the equations of motion and all limits (track, variables, controls, rates, extra constraints, integral quantities) up to the tolerances of the optimiser.", "quantifier": "every request, every vehicle that does not look at the clock, every optimiser", "why_tests_cant": "Quantifies over all solutions an optimiser may return; a test sees one.", "anchors": ["src/core/applications/optimal_laptime.hpp:Optimal_laptime::export_solution", "src/core/applications/optimal_laptime.hpp:Optimal_laptime::compute_direct", "src/core/applications/optimal_laptime.hpp:Optimal_laptime::compute_derivative"]}
{"id": "C191", "title": "No lap that obeys the rules beats the one returned", "statement": "If the optimiser is right when it reports a minimum, no choice of inputs and controls over the mesh that obeys the equations and limits (and starts as requested on an open track) has a lower lap time plus smoothing penalty than the lap returned; without dissipation, none has a lower lap time.", "quantifier": "every request, vehicle, optimiser and competing lap", "why_tests_cant": "Quantifies over all competing laps.", "anchors": ["src/core/applications/optimal_laptime.hpp:Optimal_laptime::compute", "src/core/applications/optimal_laptime.hpp:Optimal_laptime::FG_direct::operator()", "src/core/applications/optimal_laptime.hpp:Optimal_laptime::FG_derivative::operator()"]}
{"id": "C192", "title": "A computed lap can be used to start again", "statement": "A warm start from a returned lap is accepted; the optimiser starts from exactly the solution of that lap, with its multipliers; with the same options the problem it is given (bounds, constraints, cost of every trial lap) is the same as the first time.", "quantifier": "every request, vehicle, optimiser and returned lap", "why_tests_cant": "A round trip through the whole computation for all meshes and kinds of controls.", "anchors": ["src/main/c/fastestlapc.cpp:compute_optimal_laptime", "src/core/applications/optimal_laptime.hpp:Optimal_laptime::Optimal_laptime", "src/core/applications/optimal_laptime.hpp:Optimal_laptime::compute"]}
{"id": "C193", "title": "Every sensible lap of either vehicle can be computed", "statement": "An optimal-laptime computation for the Formula 1 car (four controls) or the kart (two controls) that passes the checks on mesh, controls and integral constraints reaches the optimiser, in direct and in derivative form, whichever kinds the controls are.", "quantifier": "every accepted request for either vehicle, all meshes and kinds of controls, all parameters of the vehicles", "why_tests_cant": "Universal over requests; tests use one choice of controls per vehicle.", "anchors": ["src/core/vehicles/limebeer2014f1.h:limebeer2014f1::optimal_laptime_derivative_control_bounds", "src/core/vehicles/lot2016kart.h:lot2016kart::optimal_laptime_derivative_control_bounds", "src/core/applications/optimal_laptime.hpp:Optimal_laptime::compute_derivative"]}
{"id": "C194", "title": "The optimal lap of the Formula 1 car obeys the laws of motion", "statement": "When the optimiser reports success, over every element of the returned lap the velocity and yaw rate of the car change by the forces and moments on it, its position and heading by its velocity and its wheels by their torques; at every node the tyre loads carry weight and downforce, the car does not roll or pitch, the load transfer is shared as the roll balance says, the slip angles are below their maxima and the car and its front wheels are between the edges of the track; all up to the tolerance of the optimiser.", "quantifier": "every request, flat track, car with positive mass, optimiser and returned lap", "why_tests_cant": "Relates the returned numbers to mechanics for all laps an optimiser may return.", "anchors": ["src/core/vehicles/limebeer2014f1.h:limebeer2014f1", "src/core/applications/optimal_laptime.hpp:Optimal_laptime", "src/core/vehicles/dynamic_model_car.hpp:Dynamic_model_car::operator()", "src/core/chassis/chassis_car_3dof.hpp:Chassis_car_3dof"]}
{"id": "C195", "title": "The optimal lap of the kart obeys the laws of motion", "statement": "When the optimiser reports success, over every element of the returned lap the rear axle changes its speed by the torque on it, the kart its velocity by the forces on it, height, roll and pitch change by their rates, these by the accelerations, and position and heading by the velocity; at every node the slips of the rear tyres and the slip angles of all tyres are below 0.11 and the kart is between the edges of the track; all up to the tolerance of the optimiser.", "quantifier": "every request, flat track, kart, optimiser and returned lap", "why_tests_cant": "Relates the returned numbers to mechanics for all laps an optimiser may return.", "anchors": ["src/core/vehicles/lot2016kart.h:lot2016kart", "src/core/applications/optimal_laptime.hpp:Optimal_laptime", "src/core/vehicles/dynamic_model_car.hpp:Dynamic_model_car::operator()", "src/core/chassis/chassis_car_6dof.hpp:Chassis_car_6dof"]}
{"id": "C196", "title": "Steady states of the F1 car are steady", "statement": "Every operating point of the F1 car that the steady-state application reports as solved (at requested accelerations, at maximum lateral acceleration, at extreme longitudinal acceleration, on the g-g diagram) is a steady state up to the tolerance of the solver: it moves at the requested speed, the forces on it give the reported accelerations, carry it and do not turn it, no wheel changes speed, the load transfer is shared as the roll balance says, slips, loads, steering and throttle are in the documented ranges, the boost is off and the brake bias nominal.", "quantifier": "every F1 car with positive gravity, mass and yaw inertia, every positive speed, every requested acceleration, every number of points of the diagram, every solver that satisfies its constraints up to a tolerance", "why_tests_cant": "The claim joins solver, rescaling of accelerations, layout of variables and the car's equations for all parameter values; tests look at a few operating points of one car.", "anchors": ["src/core/vehicles/limebeer2014f1.h", "src/core/applications/steady_state.hpp", "Steady_state::solve", "Steady_state::solve_max_lat_acc", "Steady_state::solve_max_lon_acc", "Steady_state::gg_diagram", "steady_state_equations"]}
{"id": "C197", "title": "Steady states of the kart are steady", "statement": "Every operating point of the kart that the steady-state application reports as solved is, up to the tolerance of the solver, at the requested speed; the forces on the kart give the reported accelerations and carry it, it has no velocity and no acceleration in height, roll and pitch, its yaw rate is constant, and slips, height, attitude and steering are in the documented ranges, with automatic and with numerical derivatives. (The speed of the rear axle is not held: C161.)", "quantifier": "every kart with positive mass, every positive speed, every requested acceleration, every number of points of the diagram, every solver that satisfies its constraints up to a tolerance", "why_tests_cant": "Same as C196, for both variants of the solver.", "anchors": ["src/core/vehicles/lot2016kart.h", "src/core/applications/steady_state.hpp", "Steady_state::solve", "Steady_state::gg_diagram", "steady_state_equations"]}
{"id": "C198", "title": "steady_state delivers a steady state or fails", "statement": "When the command steady_state returns, the arrays of the caller hold the inputs and controls of a steady state of the named vehicle at the requested speed and accelerations, and nothing beyond them is written; if none is found or there is no such vehicle, it fails and the arrays are unchanged.", "quantifier": "every vehicle table, name, speed, accelerations, arrays and solver", "why_tests_cant": "Needs the composition of command, solver and vehicle equations, for all inputs and all failures of the solver.", "anchors": ["src/main/c/fastestlapc.cpp", "steady_state", "compute_steady_state"]}
{"id": "C199", "title": "gg_diagram delivers steady states or fails", "statement": "When the command gg_diagram returns, the arrays of the caller hold evenly spaced lateral accelerations from zero to the maximum and, at each, longitudinal accelerations of steady states of the named vehicle, and nothing beyond them is written; otherwise it fails.", "quantifier": "every vehicle table, name, speed, number of points, arrays and solver", "why_tests_cant": "Failures of the nonlinear solver at single points cannot be provoked by unit tests; the claim is about all of them.", "anchors": ["src/main/c/fastestlapc.cpp", "gg_diagram", "compute_gg_diagram"]}
{"id": "C200", "title": "The estimated centreline runs between the boundaries", "statement": "The circuit preprocessor starts from a centreline estimate: cross-sections along the measured right boundary, beginning at its first point, at increasing arclengths (equal steps when a number of elements is given), each joined to a point of the left boundary; the estimate is halfway between both, its arclength begins at 0, increases and, in an open circuit, ends at the length.", "quantifier": "every pair of boundaries without repeated consecutive points, closed or open, every number of elements, set of breakpoints or distribution of sizes that is small against the length", "why_tests_cant": "The mesh is built by loops whose number of rounds depends on real-valued sizes; tests try a few circuits.", "anchors": ["src/core/applications/circuit_preprocessor.hpp", "compute_averaged_centerline"]}
{"id": "C201", "title": "Arclengths of the estimated centreline are lengths", "statement": "No two points of the estimated centreline are farther from each other than the difference of their arclengths, and in a closed circuit the rest of the length reaches back to the first point.", "quantifier": "every pair of boundaries, mesh request and pair of points", "why_tests_cant": "An inequality between all pairs of points for all curves.", "anchors": ["src/core/applications/circuit_preprocessor.hpp", "compute_averaged_centerline"]}
{"id": "C202", "title": "Computing a circuit ends and either returns a circuit or throws", "statement": "With boundaries of at least two points, different consecutive points and sizes that are small against the lengths, the constructor of the circuit preprocessor ends, never reads out of range, returns a circuit when the optimiser succeeds and throws when it does not.", "quantifier": "all coordinates, requests (elements, breakpoints, distribution, open circuit), options, kinds of circuit and optimisers", "why_tests_cant": "A unit test cannot make Ipopt fail at will, nor show that no vector access is out of range for all sizes.", "anchors": ["src/core/applications/circuit_preprocessor.h", "src/core/applications/circuit_preprocessor.hpp", "Circuit_preprocessor::Circuit_preprocessor", "Circuit_preprocessor::compute"]}
{"id": "C203", "title": "A computed circuit is a track", "statement": "Up to the tolerances of the optimiser: position, heading, curvatures and half-widths of the returned circuit change along every element as their rates say (trapezoidal rule), the heading of a closed circuit makes one turn, the first point is on the measured start line and the last one of an open circuit on the measured finish line, every quantity is within its documented range of the starting guess, the total length is between 0.9 and 1.11 times the one of the estimate, and the boundaries are the half-widths away from the centre, square to the direction of travel.", "quantifier": "all boundaries, estimates, options and optimisers that are right about bounds and constraints when they report success, with and without elevation, closed or open", "why_tests_cant": "The claim relates every point of every returned circuit to the text of a nonlinear program built by index arithmetic.", "anchors": ["src/core/applications/circuit_preprocessor.h", "src/core/applications/circuit_preprocessor.hpp", "Circuit_preprocessor::compute", "FG::operator()"]}
{"id": "C204", "title": "A computed circuit fits the measurements best", "statement": "If the optimiser returns true minima, no other track on the same mesh that meets the same equations and ranges has a lower weighted sum of squared distances to the measured boundaries and squared controls than the circuit returned.", "quantifier": "all boundaries, options, tracks to compare with and minimising optimisers", "why_tests_cant": "Optimality is a statement about all other tracks.", "anchors": ["src/core/applications/circuit_preprocessor.hpp", "Circuit_preprocessor::compute", "FG::operator()"]}
{"id": "C205", "title": "The misfit of a circuit is measured against the boundaries given", "statement": "The distances that are minimised are those to the measured boundaries: polygons through the given points, which are closed exactly when the circuit is closed.", "quantifier": "all boundaries, closed and open, and all tracks", "why_tests_cant": "The difference shows only for tracks near the segment joining the ends of an open boundary.", "anchors": ["src/core/applications/circuit_preprocessor.hpp", "FG::operator()", "find_closest_point"]}
{"id": "C206", "title": "The starting guess of a circuit", "statement": "The starting guess has the points of the estimated centreline, headings towards the next point that never jump by more than half a turn, half-widths equal to the distances to the measured boundaries (with elevation: the half-width of the estimate, a road frame along the centreline with its side towards the right boundary), and rates that are the differences of their quantities, with one whole turn over the closing element of a closed circuit.", "quantifier": "all estimates and boundaries, with and without elevation, closed or open", "why_tests_cant": "Every point of every estimate; headings near the branch cut of atan2 are rarely hit by tests.", "anchors": ["src/core/applications/circuit_preprocessor.hpp", "Circuit_preprocessor::compute"]}
{"id": "C207", "title": "The energies of a lap of the Formula 1 car are integrals of powers", "statement": "In a returned lap of the Formula 1 car the six integral quantities are, in this order, engine energy, the energies of the four tyres and boost time: the integrals over the time of the lap of engine power (maximum power times the positive part of the throttle), of the power each tyre loses by sliding, in MW, and of the boost. If the optimiser converged, those for which bounds were requested are within the last bounds requested, up to its tolerance.", "quantifier": "every request, track, car whose engine is given by its maximum power, optimiser and returned lap, converged or not (open, or with sigma 1/2)", "why_tests_cant": "The value relates all nodes of all laps an optimiser may return to forces and slips at these nodes.", "anchors": ["src/core/vehicles/limebeer2014f1.h:limebeer2014f1", "src/core/applications/optimal_laptime.hpp:Optimal_laptime", "src/core/vehicles/limebeer2014f1.h:get_integral_quantities"]}
{"id": "C208", "title": "Accelerations reported as extremes are extremes", "statement": "With an optimiser that returns true optima, no steady state at the same speed and lateral acceleration has a longitudinal acceleration above the maximum or below the minimum reported by the steady-state application, among those within the range it searches; the same at every inner point of the g-g diagram, and, with numerical derivatives, of the maximum lateral acceleration.", "quantifier": "every vehicle, speed, lateral acceleration, number of points and exact optimiser", "why_tests_cant": "Optimality is a statement about all other steady states.", "anchors": ["src/core/applications/steady_state.hpp", "Steady_state::solve_max_lon_acc", "Steady_state::gg_diagram"]}
{"id": "C209", "title": "Reported errors of a fitted circuit are distances to the measured boundaries", "statement": "For each side of a fitted circuit the reported maximum error is the largest of the distances between the boundary points of the circuit and the polygon of measured points, and is attained; the reported mean error is the root of the integral of the squared distances over the length of the circuit. The polygon is closed exactly when the circuit is.", "quantifier": "every fitted circuit, with and without elevation, closed or open, converged or not", "why_tests_cant": "Relates every point of every fit to all the segments of the measured boundary.", "anchors": ["src/core/applications/circuit_preprocessor.hpp", "Circuit_preprocessor::compute"]}
{"id": "C210", "title": "The optimal lap of the Formula 1 car on a track with elevation obeys the laws of motion", "statement": "When the optimiser reports success, over every element of the lap the velocity of the centre of mass and the angular momentum change by Newton's and Euler's laws written in the axes of the car, which turn with the road, displacement and heading by the velocity, and the wheels by their torques; at every optimised point the slip angles are below their maxima and car and wheels are within the track.", "quantifier": "every request, track with elevation, car, optimiser and converged lap", "why_tests_cant": "Holds at all nodes of all converged laps of all tracks; no run visits them.", "anchors": ["src/core/vehicles/limebeer2014f1.h:limebeer2014f1", "src/core/chassis/chassis_car_3dof.hpp:update", "src/core/vehicles/road_curvilinear.hpp", "src/core/applications/optimal_laptime.hpp:Optimal_laptime"]}
{"id": "C211", "title": "The load transfer is shared as the roll balance says", "statement": "At every optimised point of a converged lap of the Formula 1 car the difference of load across the front axle is the fraction of the whole load transfer given by the roll balance coefficient, up to the tolerance of the optimiser.", "quantifier": "every request, track, car, optimiser and converged lap", "why_tests_cant": "Needs all converged laps; an optimiser that happens to return a smooth solution hides the loss.", "anchors": ["src/core/vehicles/limebeer2014f1.h:classify_equations", "src/core/chassis/chassis_car_3dof.hpp:update", "src/core/applications/optimal_laptime.hpp:Optimal_laptime"]}
{"id": "C212", "title": "propagate_vehicle obeys the laws of motion", "statement": "When propagate_vehicle returns normally for an existing vehicle, the inputs it leaves in the array of the caller are connected with the old inputs by the laws of motion of that vehicle over the step asked for: along the named track from s to s + ds (the Formula 1 car on any track, the kart on flat ones), or on a plane over the time ds. Velocities, angular rates, positions, clock and wheels change by the weighted mean of their rates at both ends, up to the tolerance of the options; only the first inputs of the array are replaced and the arrays of controls are not touched.", "quantifier": "every vehicle, track, options, arrays, arclength and step; every time step of the library that solves its equations", "why_tests_cant": "A test takes some steps of one car and compares with stored numbers; it cannot tell whether all steps of all vehicles obey the laws.", "anchors": ["src/main/c/fastestlapc.cpp:propagate_vehicle", "src/main/c/fastestlapc.cpp:compute_propagation", "src/core/vehicles/dynamic_model_car.hpp:operator()"]}
{"id": "C213", "title": "propagate_vehicle succeeds with the options given or reports and changes nothing", "statement": "A call of propagate_vehicle either takes the step with the options written in its text (the library's defaults for those that are absent) and replaces the inputs, or reports an error and leaves the arrays of the caller as they were. Unknown vehicles, unknown tracks, unreadable options and failing steps are reported.", "quantifier": "every call, table of vehicles and tracks, and arrays", "why_tests_cant": "Every way to fail at every stage has to be considered.", "anchors": ["src/main/c/fastestlapc.cpp:propagate_vehicle", "src/main/c/fastestlapc.cpp:compute_propagation"]}
{"id": "C214", "title": "A change of track puts the whole vehicle on the track and touches nothing else", "statement": "vehicle_change_track and propagate_vehicle with a circuit put the named vehicle on the named track, even if the step then fails, and change no parameter, no other vehicle, track or variable; without the track they report and change nothing; an unknown vehicle is reported. After any sequence of calls of the library the part of a vehicle that computes laps and the part that gives outputs are on the same track.", "quantifier": "every table, name, track and sequence of calls", "why_tests_cant": "The invariant is about all sequences of calls.", "anchors": ["src/main/c/fastestlapc.cpp:vehicle_change_track", "src/main/c/fastestlapc.cpp:propagate_vehicle", "src/main/c/fastestlapc.cpp:optimal_laptime", "src/core/vehicles/road_curvilinear.h:change_track"]}
{"id": "C215", "title": "A vehicle stays on its track", "statement": "A vehicle put on a track by vehicle_change_track, propagate_vehicle or optimal_laptime stays on that track, as it was at that moment, until a call puts it on another track, renames or deletes it: in particular corrections of the limits of the track, its renaming or its deletion do not reach the vehicle, and vehicle_get_output computes on that track.", "quantifier": "every table and sequence of calls", "why_tests_cant": "The later calls are arbitrary in number and kind.", "anchors": ["src/main/c/fastestlapc.cpp:vehicle_change_track", "src/main/c/fastestlapc.cpp:track_set_track_limit_correction", "src/main/c/fastestlapc.cpp:vehicle_get_output", "src/core/vehicles/road_curvilinear.h:change_track"]}
{"id": "C216", "title": "Data created from Python comes back", "statement": "In the Python module, a vector or scalar created with create_vector or create_scalar under a free name is returned unchanged by download_vector or download_scalar, with its size and its type, after any calls that do not delete or rename it. Creating under a name that is taken, or reading a name that does not exist, ends the process and changes nothing.", "quantifier": "every table, name without null characters, list of fewer than 2^31 numbers and sequence of calls in between", "why_tests_cant": "The calls in between and the lists are unbounded; the conversions to C types hold for all sizes or none.", "anchors": ["src/main/python/fastest_lap.py:create_vector", "src/main/python/fastest_lap.py:create_scalar", "src/main/python/fastest_lap.py:download_vector", "src/main/python/fastest_lap.py:download_scalar", "src/main/python/fastest_lap.py:variable_type", "src/main/c/fastestlapc.cpp:create_vector"]}
{"id": "C217", "title": "download_variables gives the stored values", "statement": "download_variables returns a dictionary exactly when every requested name denotes a scalar or a vector; each requested name then stands for the stored value and no other name is present. The first name that denotes nothing ends the process; the first that denotes a vehicle or a track raises an exception.", "quantifier": "every table without ambiguous names and every list of names, with repetitions", "why_tests_cant": "The lists and tables are arbitrary.", "anchors": ["src/main/python/fastest_lap.py:download_variables", "src/main/python/fastest_lap.py:variable_type", "src/main/c/fastestlapc.cpp:variable_type"]}
{"id": "C218", "title": "optimal_laptime of Python returns the saved names", "statement": "After a successful optimal_laptime the Python module returns the prefix and the names of the variables saved by the library, so that download_variables on them returns the lap.", "quantifier": "every option document, vehicle and track", "why_tests_cant": "All combinations of options; the two parsers of the options must agree on each.", "anchors": ["src/main/python/fastest_lap.py:optimal_laptime", "src/main/c/fastestlapc.cpp:optimal_laptime", "src/main/c/fastestlapc.cpp:Optimal_laptime_configuration"]}
{"id": "C219", "title": "The names of a vehicle type", "statement": "vehicle_type_get_names returns the names of the key, the states, the controls and the outputs of a vehicle type, as many as vehicle_type_get_sizes says, pairwise different, different from the names of the lap time and of the integral quantities; the outputs are those of the chassis and of each of the four tyres. Names that do not fit the buffers are refused, and so are unknown types.", "quantifier": "both vehicle types, every buffer size and every name of a type", "why_tests_cant": "Holds for all buffer sizes; distinctness across the three lists is needed by every request of variables.", "anchors": ["src/main/python/fastest_lap.py:vehicle_type_get_names", "src/main/python/fastest_lap.py:vehicle_type_get_sizes", "src/main/c/fastestlapc.cpp:vehicle_type_get_names", "src/core/tire/tire.h:get_outputs_map_self", "src/core/chassis/chassis.h:get_outputs_map_self"]}
{"id": "C220", "title": "gg_diagram of Python is in units of g", "statement": "The Python gg_diagram returns four lists with the requested number of points: the lateral accelerations of the diagram of the vehicle divided by 9.81, their negatives, and the largest and smallest longitudinal accelerations divided by 9.81. An unknown vehicle is an error.", "quantifier": "every vehicle, speed, number of points and optimiser", "why_tests_cant": "The optimiser and the number of points are arbitrary.", "anchors": ["src/main/python/fastest_lap.py:gg_diagram", "src/main/c/fastestlapc.cpp:gg_diagram"]}
{"id": "C221", "title": "track_coordinates returns the track", "statement": "The Python track_coordinates returns the coordinates of the centreline, of the left and right boundaries and the heading of the stored track, one entry per point, in this order; track_download_data returns any of the eleven variables. Unknown tracks and variables end the process.", "quantifier": "every track with fewer than 2^31 points", "why_tests_cant": "Tracks of all sizes.", "anchors": ["src/main/python/fastest_lap.py:track_coordinates", "src/main/python/fastest_lap.py:track_download_data", "src/main/c/fastestlapc.cpp:track_download_data", "src/main/c/fastestlapc.cpp:track_download_number_of_points"]}
{"id": "C222", "title": "vehicle_get_output gives every listed output", "statement": "For a stored vehicle, vehicle_get_output returns a value for each of the names listed by the library for that vehicle type, computed from the inputs, controls and arclength given; any other name and any unknown vehicle is an error. Too few inputs or controls are read out of bounds.", "quantifier": "every library, vehicle, inputs, controls, arclength and name", "why_tests_cant": "Names and vehicles are arbitrary texts.", "anchors": ["src/main/c/fastestlapc.cpp: vehicle_get_output, vehicle_get_property_generic", "src/core/chassis/chassis.h: get_outputs_map", "src/core/tire/tire.h: get_outputs_map_self"]}
{"id": "C223", "title": "Reported tyre velocities, slips and dissipation agree", "statement": "The velocity reported for a tyre in the axes of the car is that of the point of the road at the wheel, moving with the car; the velocity reported in the axes of the wheel is the same vector turned by the steering angle; angular speed times radius is (1 + true_kappa) times its forward component, lambda times its forward component is minus its lateral one, and dissipation is the power of the reported force on the sliding velocity.", "quantifier": "every car, road, inputs and controls, each of the four wheels", "why_tests_cant": "Real-valued states and parameters.", "anchors": ["src/core/tire/tire.h: get_outputs_map_self", "src/core/tire/tire.hpp: update"]}
{"id": "C224", "title": "Reported forces add up", "statement": "The reported forces of the four tyres in fixed axes, the reported aerodynamic force turned to fixed axes and the weight add up to the reported chassis force; the two reports of the force of a tyre have the same magnitude.", "quantifier": "every car, road, inputs and controls", "why_tests_cant": "Real-valued states and parameters.", "anchors": ["src/core/chassis/chassis.h: get_outputs_map_self", "src/core/tire/tire.h: get_outputs_map_self"]}
{"id": "C225", "title": "Reported accelerations are the reported force per unit mass", "statement": "For a moving vehicle with mass, the reported accelerations are the components of the reported chassis force per unit mass along the velocity in the plane of the road and to its right.", "quantifier": "every vehicle, road, inputs with non-zero velocity and controls", "why_tests_cant": "Real-valued states.", "anchors": ["src/core/chassis/chassis.h: get_outputs_map_self", "src/core/chassis/chassis.hpp: get_longitudinal_acceleration, get_lateral_acceleration"]}
{"id": "C226", "title": "Reported yaw is the direction of the car", "statement": "Seen from above, the car points in the direction of the reported chassis.attitude.yaw.", "quantifier": "every car, road and inputs", "why_tests_cant": "Real-valued angles.", "anchors": ["src/core/chassis/chassis.h: get_outputs_map_self", "src/core/vehicles/dynamic_model_car.hpp: operator()"]}
{"id": "C227", "title": "Reported positions move with the reported velocities", "statement": "When a car drives along a road, the time derivative of the reported position of the car is its velocity, and the time derivative of the reported position of a wheel, taken to the road along its normal, is the reported velocity of its tyre turned to fixed axes.", "quantifier": "every F1 car, road with elevation, motion along it and time; each of the four wheels", "why_tests_cant": "Derivatives along arbitrary motions.", "anchors": ["src/core/chassis/chassis.h: get_outputs_map_self", "src/core/tire/tire.h: get_outputs_map_self", "src/core/vehicles/road_curvilinear.hpp: update_track"]}
{"id": "C228", "title": "Reported aerodynamics agree", "statement": "The reported aerodynamic velocity is the reported wind minus the velocity of the vehicle; reported drag components have its direction and grow with its square, lift grows with the square of its forward component. On flat roads the reported wind turned by the reported yaw is the wind of the parameters, and the reported drag is the magnitude of the drag.", "quantifier": "every vehicle, road, inputs and controls", "why_tests_cant": "Real-valued states.", "anchors": ["src/core/chassis/chassis.h: get_outputs_map_self", "src/core/chassis/chassis.hpp: get_aerodynamic_force"]}
{"id": "C229", "title": "vehicle_get_output_variable_names respects the buffers", "statement": "vehicle_get_output_variable_names writes the name of every output of a stored vehicle once and never more than the stated number of characters; an unknown vehicle or a wrong number of outputs is an error.", "quantifier": "every vehicle, number and size of buffers, and order of the map", "why_tests_cant": "Map order and sizes are unbounded.", "anchors": ["src/main/c/fastestlapc.cpp: vehicle_get_output_variable_names"]}
{"id": "C230", "title": "A create call stores what it was given, or nothing", "statement": "Creating a vehicle, track, vector or scalar under a free name stores exactly the given value under that name and changes no other variable; if the name is taken, or the file cannot be turned into a variable, the call is an error and changes nothing.", "quantifier": "every registry state, create call, name and file outcome", "why_tests_cant": "Registry states are unbounded.", "anchors": ["src/main/c/fastestlapc.cpp: create_vehicle_from_xml, create_vehicle_empty, create_track_from_xml, create_vector, create_scalar"]}
{"id": "C231", "title": "Reading a variable reports what is stored", "statement": "download_scalar, download_vector_size and variable_type return the stored value, length and type name for a name that holds a variable of the right kind, are errors for every other name, and change nothing.", "quantifier": "every registry state and name", "why_tests_cant": "Registry states are unbounded.", "anchors": ["src/main/c/fastestlapc.cpp: download_scalar, download_vector_size, variable_type"]}
{"id": "C232", "title": "Working on one variable changes only that one", "statement": "Setting or declaring a parameter, using a vehicle, changing its track and setting the limits of a track replace the named variable by the result of the work, report the outcome of the work, and leave every other variable unchanged.", "quantifier": "every registry state, name and work, including failing work", "why_tests_cant": "Registry states and work are arbitrary.", "anchors": ["src/main/c/fastestlapc.cpp: vehicle_set_parameter, vehicle_declare_new_constant_parameter, vehicle_change_track, track_set_track_limit_correction"]}
{"id": "C233", "title": "A call with an unknown vehicle is an error", "statement": "A call that names a vehicle that is not stored is an error and changes nothing.", "quantifier": "every registry state, name and vehicle call", "why_tests_cant": "Registry states are unbounded.", "anchors": ["src/main/c/fastestlapc.cpp: vehicle_set_parameter, steady_state, vehicle_change_track, optimal_laptime, vehicle_get_output"]}
{"id": "C234", "title": "Variables only come from calls that name them", "statement": "After any history of calls starting from an empty library, every stored variable has a name that one of the calls was asked to use: as the created name, the target of a copy or move, a requested output with its prefix, or a derivative of one.", "quantifier": "every history of API calls, including failing ones", "why_tests_cant": "Histories are unbounded.", "anchors": ["src/main/c/fastestlapc.cpp: all functions that insert into the tables"]}
{"id": "C235", "title": "The reported accelerations are those of the motion", "statement": "When a vehicle moves as its equations of motion say, the reported longitudinal and lateral accelerations are the rate at which its speed grows and the rate at which its velocity turns times its speed, the reported yaw acceleration is the rate of its yaw speed, and for the F1 car the reported yaw torque is the moment of inertia times that acceleration.", "quantifier": "every vehicle, track, arclength and motion that satisfies the equations there; flat roads for the F1 car", "why_tests_cant": "A test compares outputs at sampled points; the relation is between the outputs and the derivative of a trajectory.", "anchors": ["src/core/chassis/chassis.hpp: get_outputs_map, get_longitudinal_acceleration, get_lateral_acceleration", "src/core/chassis/chassis_car_3dof.hpp: update", "src/core/chassis/chassis_car_6dof.hpp: update"]}
{"id": "C236", "title": "Outputs of a mirrored vehicle are mirrored", "statement": "The mirror image of a vehicle, on the mirror image of the track and with mirrored inputs and controls, reports the mirror image of the outputs: the tyres of the two sides exchanged, lateral values reversed and all else the same. A symmetric car that goes straight on a straight track reports no lateral force, no yaw acceleration and equal tyres on both sides.", "quantifier": "every car and kart, point of the track, inputs and controls", "why_tests_cant": "Inputs and vehicle data are real numbers; a swapped side or a sign shows only in some combinations.", "anchors": ["src/core/chassis/chassis.hpp: get_outputs_map", "src/core/chassis/axle_car_3dof.hpp: update", "src/core/chassis/axle_car_6dof.hpp: update", "src/core/tire/tire.hpp: get_outputs_map", "src/main/c/fastestlapc.cpp: vehicle_get_output"]}
{"id": "C237", "title": "Vehicles behave as values", "statement": "Vehicles may be created, copied, assigned, evaluated and destroyed in any order: a copy keeps what it had when it was copied whatever happens to the original, no vehicle refers to a frame of another one or to one that no longer exists, and nothing undefined happens unless the program uses a vehicle that it destroyed.", "quantifier": "every program of such operations, of any length", "why_tests_cant": "Programs are unbounded, and a pointer into another vehicle often goes unnoticed in a test.", "anchors": ["src/core/chassis/chassis.hpp: Chassis(const Chassis&), operator=", "src/core/chassis/axle.hpp: Axle(const Axle&), operator=", "src/core/chassis/chassis_car_3dof.hpp: Chassis_car_3dof(Xml_document&)"]}
{"id": "C238", "title": "A copied axle model does not depend on the original", "statement": "A copy of the model of a single powered axle refers only to its own frames, so the original may be destroyed.", "quantifier": "every axle model", "why_tests_cant": "The dangling pointer is only read when the absolute position or velocity is asked for.", "anchors": ["src/core/vehicles/dynamic_model_powered_axle.h: Dynamic_model_powered_axle", "src/core/vehicles/dynamic_model_powered_axle.hpp: Dynamic_model_powered_axle"]}
{"id": "C239", "title": "The outcome of a minimum curvature path", "statement": "For accepted stations the computation throws exactly when the solver fails and exceptions are asked for; otherwise the object says whether the solver succeeded, has one value of every quantity per station and one length per element, and its points are on the cross sections of the circuit at the stations. When it reports success the path is within the edges and is a curve, as accurately as the solver satisfies its constraints.", "quantifier": "every solver, circuit, list of stations, tolerance, open and closed; tracks made of arcs", "why_tests_cant": "The solver is arbitrary; unbounded number of stations.", "anchors": ["src/core/applications/minimum_curvature_path.hpp:Minimum_curvature_path::compute_track_by_polynomial", "src/core/applications/minimum_curvature_path.hpp:Minimum_curvature_path::compute_track_by_arcs"]}
{"id": "C240", "title": "No other path turns less than the minimum curvature path", "statement": "With a solver that finds minima, no other path through the same stations that stays within the edges and allowed ranges has a smaller integral of the squared curvature than the one returned.", "quantifier": "every solver that finds minima, circuit, list of stations and competing path", "why_tests_cant": "Universal over competing paths.", "anchors": ["src/core/applications/minimum_curvature_path.hpp:Minimum_curvature_path::compute_track_by_polynomial", "src/core/applications/minimum_curvature_path.hpp:Minimum_curvature_path::Fitness_fcn_by_polynomial::operator()"]}
{"id": "C241", "title": "A computed minimum curvature path can be saved", "statement": "xml() of a computed path contains every quantity of its points, in order.", "quantifier": "every path computed on a circuit or on a track made of arcs", "why_tests_cant": "Lists of any length; the failure for arcs is undefined behaviour.", "anchors": ["src/core/applications/minimum_curvature_path.hpp:Minimum_curvature_path::xml", "src/core/applications/minimum_curvature_path.hpp:Minimum_curvature_path::compute_track_by_arcs"]}
{"id": "C242", "title": "A single powered axle obeys the laws of motion", "statement": "The dynamic model of a single powered axle keeps both tyres under the load given to its constructor, whatever its state; it moves along its constant heading at its speed; mass times acceleration is the force of the tyres less the drag; its kinetic energy changes exactly by the power of engine, brakes, drag and sliding tyres; and its accelerations do not depend on where it is.", "quantifier": "every axle of positive stiffnesses, every load, state and throttle", "why_tests_cant": "The equations hold for every real state and parameter; a test compares single trajectories (and the one that exists is commented out).", "anchors": ["src/core/vehicles/dynamic_model_powered_axle.hpp:Dynamic_model_powered_axle::Dynamic_model_powered_axle", "src/core/vehicles/dynamic_model_powered_axle.hpp:Dynamic_model_powered_axle::operator()", "src/core/chassis/axle_car_6dof.hpp:Axle_car_6dof::update"]}
{"id": "C243", "title": "A planar curve is sampled with its own direction and curvature", "statement": "A track built from a planar curve is fitted to samples at both ends of every piece and at equal distances in between; at each of them the curvature is the change of direction of the curve per unit of length and the heading is its direction. Curves that leave the plane are rejected.", "quantifier": "every twice differentiable planar curve with speed, every list of pieces", "why_tests_cant": "Universal over curves and numbers of pieces.", "anchors": ["src/core/vehicles/track_by_polynomial.hpp:Track_by_polynomial::Track_by_polynomial(const vPolynomial&, const sPolynomial&, const sPolynomial&)"]}
{"id": "C244", "title": "The heading of a track built from a planar curve has no jumps", "statement": "Along a track built from a planar curve the heading changes from one sample to the next as the direction of the curve does, also after a full turn.", "quantifier": "every planar curve and every pair of samples", "why_tests_cant": "The failure needs a curve that points backwards, whatever its shape; every closed circuit is one.", "anchors": ["src/core/vehicles/track_by_polynomial.hpp:Track_by_polynomial::Track_by_polynomial(const vPolynomial&, const sPolynomial&, const sPolynomial&)"]}
{"id": "C245", "title": "The reported wheels of a kart move with their reported velocities", "statement": "While a kart obeys its equations of motion along a flat track, its reported position changes with its velocity and the reported position of each wheel changes with the reported velocity of that wheel, both turned by the reported yaw.", "quantifier": "every kart, flat track, trajectory and control in time, and each of the four wheels", "why_tests_cant": "The claim is about derivatives along every trajectory; a term left out vanishes in straight or steady motion.", "anchors": ["src/core/chassis/axle_car_6dof.hpp: update, update_track", "src/core/chassis/chassis_car_6dof.hpp: update", "src/core/chassis/chassis.h: get_outputs_map", "src/main/c/fastestlapc.cpp: vehicle_get_output"]}
{"id": "C246", "title": "vehicle_get_output reproduces what a lap saved", "statement": "Called with the inputs, the controls and the arclength saved by optimal_laptime for a point of a lap, vehicle_get_output returns the value saved for that point, for every output of the vehicle that was asked for.", "quantifier": "every lap, point of it, choice of variables to save, F1 car or kart, and output", "why_tests_cant": "Two separate paths of the library must agree for all laps and all selections of variables.", "anchors": ["src/main/c/fastestlapc.cpp: vehicle_get_output, optimal_laptime"]}
{"id": "C247", "title": "Laps of an F1 car do not prefer left or right", "statement": "Exchange left and right in everything that is given to the lap-time optimization of an F1 car: the track and its widths, the positions of the axles, the wind, the starting guess, the bounds of the variables, the steering and the integral constraints of the tyres. Then the mirror image of every lap that obeys the equations of motion and all limits obeys them too and takes as long, so the optimum lap takes the same time.", "quantifier": "every F1 car with parameters that change along the track, track (flat or with elevation), mesh, closed or open, direct or derivative controls, tolerances, bounds, integral constraints", "why_tests_cant": "A mistake in one sign or index of one of the hundreds of formulas shows only in asymmetric situations.", "anchors": ["src/core/applications/optimal_laptime.hpp: Optimal_laptime::compute, FG_direct::operator(), FG_derivative::operator()", "src/core/vehicles/limebeer2014f1.h: limebeer2014f1", "src/core/vehicles/road_curvilinear.hpp: Road_curvilinear::update_track", "src/core/chassis/chassis_car_3dof.hpp: Chassis_car_3dof::update"]}
{"id": "C248", "title": "Laps of a kart do not prefer left or right", "statement": "Exchange left and right in everything that is given to the lap-time optimization of a kart: the track and its widths, the suspension and the frame, the wind, the starting guess, the bounds of the variables, the steering and the integral constraints of the tyres. Then the mirror image of every lap that obeys the equations of motion and all limits obeys them too and takes as long, so the optimum lap takes the same time.", "quantifier": "every kart with parameters that change along the track, track, mesh, closed or open, direct or derivative controls, tolerances, bounds, integral constraints", "why_tests_cant": "A sign or index in one of the hundreds of formulas shows only in asymmetric situations.", "anchors": ["src/core/applications/optimal_laptime.hpp: Optimal_laptime::compute, FG_direct::operator(), FG_derivative::operator()", "src/core/chassis/chassis_car_6dof.hpp: update", "src/core/chassis/axle_car_6dof.hpp: update", "src/core/vehicles/lot2016kart.h: lot2016kart"]}
{"id": "C249", "title": "On a track made of arcs the minimum curvature path is on the track and no path turns less", "statement": "On a track made of arcs, with a solver that finds minima, the computed path is within the edges of the track and no other path through the same cross sections that stays within the edges turns less.", "quantifier": "every solver that finds minima, track made of arcs, number of points and competing path", "why_tests_cant": "Universal over tracks and competing paths.", "anchors": ["src/core/applications/minimum_curvature_path.hpp:Minimum_curvature_path::compute_track_by_arcs", "src/core/applications/minimum_curvature_path.hpp:Minimum_curvature_path::Fitness_fcn::operator()", "src/core/vehicles/track_by_arcs.h: get_left_track_limit", "src/core/vehicles/track_by_arcs.hpp: pseudo_curvature2_at"]}
{"id": "C250", "title": "The best closed lap does not depend on where it starts", "statement": "Start a closed lap at another of its nodes: the track then begins there, and nodes, inputs and controls are listed from that node on. The same laps obey the equations and limits, they take as long and cost as much, so both requests have the same best lap time.", "quantifier": "all vehicles whose equations do not depend on the time, all closed requests with increasing nodes from zero, all nodes to start at, all laps, and all optimisers that return a minimum", "why_tests_cant": "a test runs one start line with one circuit; that no choice of start line changes the result concerns all of them, and the closing element is coded apart from the inner ones", "anchors": ["src/core/applications/optimal_laptime.hpp: Optimal_laptime::compute, FG_direct::operator(), FG_derivative::operator()"]}
{"id": "C251", "title": "Looser limits never make the best lap slower", "statement": "Compute the best lap, then allow more: a wider track, wider bounds of inputs, controls, rates and extra constraints, and fewer or wider integral constraints. Every lap that was allowed still is, and the best lap does not cost more. Without smoothing its lap time does not get larger.", "quantifier": "all vehicles whose equations do not depend on the time, all open and closed requests in both forms, all pairs of limits of which one is nowhere tighter, and all optimisers that return a minimum", "why_tests_cant": "a test compares two sets of limits on one track; that no limit enters the wrong way round or restricts something else concerns all limits and all laps", "anchors": ["src/core/applications/optimal_laptime.hpp: Optimal_laptime::compute, compute_direct, compute_derivative, FG_direct::operator(), FG_derivative::operator()"]}
{"id": "C252", "title": "The best closed lap does not depend on the starting guess", "statement": "Compute a closed lap twice from different guesses of the inputs and of the values of the controls, with the same definition of the controls. If both succeed with optimisers that return a minimum, both laps cost the same. Without smoothing their lap times are the same.", "quantifier": "all vehicles whose equations do not depend on the time, all closed requests in both forms, all pairs of starting guesses, and all optimisers that return a minimum", "why_tests_cant": "tests start from one guess; that nothing of the guess remains in equations, limits or cost of the problem concerns all guesses", "anchors": ["src/core/applications/optimal_laptime.hpp: Optimal_laptime::compute, compute_direct, compute_derivative, FG_direct::operator(), FG_derivative::operator()"]}
{"id": "C253", "title": "Leaving controls more freedom never makes the best closed lap slower", "statement": "Optimise a control that was left at its default, let a constant control vary over the mesh of the lap or over a mesh of its own, or give a control on its own mesh a value at every node (direct form, without smoothing). The best closed lap does not cost more, and without smoothing its lap time does not get larger.", "quantifier": "all vehicles whose equations do not depend on the time and whose rates may be zero, all closed requests, all controls of which some are given more freedom, and all optimisers that return a minimum", "why_tests_cant": "a test compares two definitions on one circuit; that each definition contains the laps of the more restricted ones concerns all laps", "anchors": ["src/core/applications/optimal_laptime.hpp: Optimal_laptime::compute, compute_direct, compute_derivative", "src/core/applications/detail/optimal_laptime_control_variables.h: control_array_at_s, check_inputs"]}
{"id": "C254", "title": "More smoothing never makes the best lap faster", "statement": "Multiply the dissipation of all controls by the same factor greater than one. The lap time of the best lap does not get smaller, and its smoothing penalty grows at most by that factor, so that its controls do not get rougher.", "quantifier": "all vehicles whose equations do not depend on the time, all open and closed requests in both forms, all factors greater than one, and all optimisers that return a minimum", "why_tests_cant": "a test compares two weights on one circuit; that the weight enters only as a trade of time against roughness concerns all weights and laps", "anchors": ["src/core/applications/optimal_laptime.hpp: Optimal_laptime::compute, FG_direct::operator(), FG_derivative::operator()"]}
{"id": "C255", "title": "Turning the circuit together with the wind, and moving it, changes no lap", "statement": "Turn a circuit about the vertical, turn the wind by the same angle, and move the circuit. Every lap computed on it, for the F1 car and for the kart, is the lap computed before: the same result or failure, the same states, controls and lap time. Of the outputs of the vehicle only positions, the heading and the tyre forces in fixed axes change, and these turn and move with the circuit.", "quantifier": "all cars and karts with any wind, all circuits that are elevated or not as before, all angles and displacements, all optimisers and all lap requests; all states and controls for the outputs", "why_tests_cant": "a test turns one circuit; that no equation refers to a fixed direction or place, except through the wind, concerns all angles and all laps", "anchors": ["src/core/chassis/chassis.hpp: Chassis::update, Chassis::compute_aerodynamic_forces", "src/core/vehicles/road_curvilinear.hpp: Road_curvilinear::update", "src/core/chassis/chassis.h: Chassis::get_outputs_map_self", "src/core/tire/tire.h: Tire::get_outputs_map_self", "src/core/applications/optimal_laptime.hpp: Optimal_laptime::compute"]}
{"id": "C256", "title": "The data of a circuit mean the same elsewhere", "statement": "Turn the points of a circuit about the vertical and move them. The track made of these data is accepted or rejected as before, each of its points is turned and moved, and its edges, kerbs, length and whether it has elevation are the same.", "quantifier": "all circuits with any points and kerbs, all angles and displacements, all arc-lengths", "why_tests_cant": "a test loads one circuit; that only differences of positions matter concerns all circuits and displacements", "anchors": ["src/core/vehicles/track_by_polynomial.hpp: Track_by_polynomial::Track_by_polynomial, Track_by_polynomial::has_elevation", "src/core/vehicles/track_by_polynomial.h: Track_by_polynomial", "src/core/vehicles/lot2016kart.h: change_track", "src/core/vehicles/limebeer2014f1.h: classify_equations"]}
{"id": "C257", "title": "A circuit further east is the same circuit", "statement": "Add the same number of degrees to the longitude of all coordinates given for a circuit, and of the start, the finish or the points where the mesh changes. The preprocessor gives the same result: the same mesh, boundaries, centreline, curvature and widths, or the same failure.", "quantifier": "all coordinates of both boundaries, all displacements in longitude, all four ways of asking for a mesh, open and closed circuits, all optimisers", "why_tests_cant": "a test fits one circuit; that the absolute longitude has no influence concerns all circuits and displacements", "anchors": ["src/core/applications/circuit_preprocessor.hpp: Circuit_preprocessor::transform_coordinates, Circuit_preprocessor::trim_coordinates", "src/core/applications/circuit_preprocessor.h: Circuit_preprocessor::Circuit_preprocessor"]}
{"id": "C258", "title": "A trimmed open circuit begins and ends at the points of its boundaries closest to start and finish", "statement": "When part of a circuit is fitted, from a start to a finish, each boundary that is fitted begins at its point that is closest on the ground to the start and ends at its point that is closest on the ground to the finish.", "quantifier": "all boundaries with at least two points, all starts and finishes for which the trimming succeeds", "why_tests_cant": "a test checks one piece of one circuit, near enough to one direction; closeness is a claim about all the points of the boundary, at all latitudes", "anchors": ["src/core/applications/circuit_preprocessor.hpp: Circuit_preprocessor::trim_coordinates"]}
{"id": "C259", "title": "Unless the options say otherwise, a lap stays in the ranges of the vehicle", "statement": "In every lap that is reported as successful, the inputs and the optimised controls to which the options give no bounds are in the ranges of the vehicle at all optimised nodes: for the F1 car 50 to 380 km/h, slips between -1 and 1, 20 degrees of steering, a heading within 45 degrees of the track and so on; for the kart 10 to 200 km/h, roll and pitch below 30 degrees and so on.", "quantifier": "all options given to the interface, all cars and karts, all circuits, meshes and guesses, all optimisers that keep to the bounds they are given when they report success", "why_tests_cant": "a test looks at one lap; that no path from the options to the optimiser loses, swaps or overwrites a bound concerns all options and laps", "anchors": ["src/main/c/fastestlapc.cpp: Optimal_laptime_configuration, compute_optimal_laptime", "src/core/applications/optimal_laptime.h: Optimal_laptime::Options", "src/core/chassis/chassis.hpp: set_state_and_control_upper_lower_and_default_values", "src/core/chassis/chassis_car_3dof.hpp: set_state_and_control_upper_lower_and_default_values", "src/core/chassis/chassis_car_6dof.hpp: set_state_and_control_upper_lower_and_default_values", "src/core/chassis/axle_car_3dof.hpp: set_state_and_control_upper_lower_and_default_values", "src/core/chassis/axle_car_6dof.hpp: set_state_and_control_upper_lower_and_default_values"]}
{"id": "C260", "title": "The parameters of a car may be given in any order", "statement": "Setting each of a set of parameters of the F1 car once gives the same car in whatever order they are set; more generally two sequences of settings that set the same parameters and leave the same last values give the same car. A vehicle file that has each parameter once gives the same car, or the same error, whatever the order of its elements.", "quantifier": "every pair of sequences of settings and every pair of documents, over any field", "why_tests_cant": "Sequences of settings are unbounded and their orders grow factorially.", "anchors": ["src/main/c/fastestlapc.cpp: vehicle_set_parameter", "src/core/vehicles/dynamic_model_car.h: set_parameter", "src/core/chassis/chassis_car_3dof.hpp: set_parameter"]}
{"id": "C261", "title": "A car made by hand is the car of the file", "statement": "When a vehicle file with normal tyres and each parameter once is accepted, creating an empty F1 car and setting each parameter of the file with vehicle_set_parameter gives exactly the car read from the file, including the record of which parameters were given.", "quantifier": "every accepted document, in any order of elements, over any field", "why_tests_cant": "The values are arbitrary; each of the parameters has to reach the same place by two separate pieces of code.", "anchors": ["src/main/c/fastestlapc.cpp: create_vehicle_empty, create_vehicle_from_xml, vehicle_set_parameter", "src/core/vehicles/dynamic_model_car.h: set_parameter"]}
{"id": "C262", "title": "Options may be given in any order", "statement": "The options of an optimal lap, of the circuit preprocessor and of a propagation may be given in any order if no name is repeated, with the same result also in case of an error. If the options of a lap are accepted, the entries of the control variables and of the variable bounds may also be in any order.", "quantifier": "every document and every reordering of it", "why_tests_cant": "Orders grow factorially with the number of options.", "anchors": ["src/main/c/fastestlapc.cpp: Optimal_laptime_configuration, Circuit_preprocessor_configuration, propagate_vehicle"]}
{"id": "C263", "title": "Options that are not known have no effect", "statement": "An element whose name is not that of an option changes nothing wherever it is put among the options of a lap, of the circuit preprocessor or of a propagation, whatever it contains. If an option of a lap is given again the second is ignored.", "quantifier": "every document, every further element and every place for it", "why_tests_cant": "Names and contents are unbounded.", "anchors": ["src/main/c/fastestlapc.cpp: Optimal_laptime_configuration, Circuit_preprocessor_configuration, propagate_vehicle"]}
{"id": "C264", "title": "The minimum curvature path does not depend on where the circuit lies", "statement": "When a circuit is moved or turned about the vertical, the paths allowed on it are those of the original circuit moved and turned, with the same curvature; with a solver that finds minima the computed path has the same cost, and the original path moved and turned is one of the best.", "quantifier": "every circuit (open or closed, with elevation and banking), displacement, angle, choice of stations and path", "why_tests_cant": "Angles, displacements and paths are continuous.", "anchors": ["src/core/applications/minimum_curvature_path.hpp: Minimum_curvature_path, Fitness_fcn_by_polynomial::operator()"]}
{"id": "C265", "title": "The minimum curvature path does not prefer left or right", "statement": "When left and right of a circuit are exchanged, the paths allowed on it are the mirror images of those of the original circuit, with the same curvature; with a solver that finds minima the computed path has the same cost, and the mirror image of the original path is one of the best.", "quantifier": "every circuit (open or closed, with elevation and banking), choice of stations and path", "why_tests_cant": "A sign error in one of the formulas shows only for particular combinations of heading, pitch and roll.", "anchors": ["src/core/applications/minimum_curvature_path.hpp: Minimum_curvature_path, Fitness_fcn_by_polynomial::operator()"]}
{"id": "C266", "title": "The fit of a circuit does not depend on where the circuit lies", "statement": "Turn both measured boundaries about the vertical and move them. A track of the boundaries, turned and moved with them, is a track of the turned and moved boundaries, and fits them as well: the same distances to the boundaries and to the estimate of the centreline, the same weighted sum. If boundaries and estimate are only moved, the fit that the preprocessor returns has the same misfit and the same direction of travel as before.", "quantifier": "all boundaries and tracks, all angles and displacements; the comparison of two fits: circuits without elevation, and open ones with elevation, and all optimisers that return true minima", "why_tests_cant": "a test fits one circuit at one place; that the place has no influence concerns all circuits and displacements, and comparing two minima needs all tracks", "anchors": ["src/core/applications/circuit_preprocessor.hpp: Circuit_preprocessor::compute, FG::operator()", "src/core/applications/circuit_preprocessor.h: FG::equations, FG::get_coordinates"]}
{"id": "C267", "title": "The fit of a circuit does not depend on where north is", "statement": "Without elevation, turn both measured boundaries and the estimate of the centreline about the vertical and move them. The starting guess is turned and moved as well, up to whole turns of the heading, with the same direction of travel. If the tracks found are within 100 m of the estimate, which is the range in which the preprocessor looks along each axis, the fit has the same misfit.", "quantifier": "all boundaries, all estimates in which no point is at the place of the next one, open and closed, all angles and horizontal displacements, all optimisers that return true minima", "why_tests_cant": "headings jump by a whole turn at an angle that depends on the axes; whether the fit depends on it concerns all circuits and angles", "anchors": ["src/core/applications/circuit_preprocessor.hpp: Circuit_preprocessor::compute", "src/core/applications/circuit_preprocessor.h: FG::equations, FG::get_coordinates"]}
{"id": "C268", "title": "The mirror image of a track fits the mirror image of the boundaries", "statement": "Take the mirror image of both measured boundaries, exchanging left and right. The mirror image of a track of the boundaries (it turns and banks the other way, the distances to the two boundaries are exchanged) is a track of the new boundaries travelled in the opposite sense: it obeys the equations of a track with the same tolerance and begins and ends on the mirrored start and finish lines. It fits the new boundaries as well as the track fits the old ones.", "quantifier": "all boundaries and tracks, with and without elevation, open and closed", "why_tests_cant": "left and right are handled by different lines of code in equations, boundaries and cost; that none of them treats one side differently concerns all tracks", "anchors": ["src/core/applications/circuit_preprocessor.hpp: FG::operator()", "src/core/applications/circuit_preprocessor.h: FG::equations, FG::get_coordinates"]}
{"id": "C269", "title": "The fit of the mirror image of a circuit is its mirror image", "statement": "Without elevation, fit the mirror image of both measured boundaries and of the estimate of the centreline, left and right exchanged. The starting guess is the mirror image of the original one, up to whole turns of the heading, in the opposite direction of travel, and the fit has the same misfit and the opposite direction of travel. Needed: no point of the estimate is at the place of the next one, the estimate does not turn straight back anywhere, and in a closed circuit the first and the last heading of the guess differ.", "quantifier": "all boundaries and all such estimates, open and closed, all optimisers that return true minima", "why_tests_cant": "a test fits one circuit; right-hand and left-hand circuits pass different branches (direction of travel, wrapping of headings), and comparing two minima needs all tracks", "anchors": ["src/core/applications/circuit_preprocessor.hpp: Circuit_preprocessor::compute, FG::operator()"]}
{"id": "C270", "title": "The fit of a circuit, with its own estimate of the centreline, does not depend on where the circuit lies and faces", "statement": "Let the measured boundaries of a circuit, and the places at which element sizes are asked for, be turned about the vertical and moved. Then the first estimate of the centreline computed from them is the estimate of the original boundaries, turned and moved: the same number of nodes at the same arclengths, the same length, and the computation ends, fails or is undefined for the one exactly when it does for the other. In a flat computation the circuits fitted from the two estimates therefore have the same misfit and direction.", "quantifier": "all boundaries, angles and displacements, open and closed circuits, numbers of elements, breakpoints and distributions; all searches and interpolations that commute with turning and moving, all feasible minimising optimisers", "why_tests_cant": "tests fit a few circuits at one place and in one orientation", "anchors": ["src/core/applications/circuit_preprocessor.hpp: compute_averaged_centerline, compute_ds_for_coordinates, who_is_ahead, compute"]}
{"id": "C271", "title": "Ties between closest points do not change the fit", "statement": "Given the estimate of the centreline, the fit of a circuit depends on the search for closest points only through the distances. Two searches that both find the closest point of a line give the same circuit, or the same failure, although they may return different points where several are equally close, start at different indices and look over different distances.", "quantifier": "all pairs of searches that find the distance to the line, all optimisers, settings, estimates and boundaries of at least two points, flat and elevated", "why_tests_cant": "a test runs one search", "anchors": ["src/core/applications/circuit_preprocessor.hpp: compute, FG::operator()"]}
{"id": "C272", "title": "The estimate of the centreline treats the two boundaries alike", "statement": "The first estimate of the centreline of the mirror image of a circuit, whose left boundary is the mirror image of the right one and vice versa, is the mirror image of the estimate of the circuit: mirrored points at the same arclengths, the same length and exchanged half-widths.", "quantifier": "all boundaries, open and closed, numbers of elements, breakpoints and distributions; all searches and interpolations that commute with mirroring", "why_tests_cant": "tests compute estimates of a few circuits and never of their mirror images", "anchors": ["src/core/applications/circuit_preprocessor.hpp: compute_averaged_centerline"]}
{"id": "C273", "title": "The prefix of a lap is the text of the options without the blanks at its ends, for the library and for Python", "statement": "The prefix under which a lap is saved is the text given in the options without the blanks at its two ends; blanks within it stay. The prefix that optimal_laptime returns in Python is the one under which the library saved the lap, so that the returned names can be downloaded.", "quantifier": "All texts of any length, all options that are accepted, all vehicles, tracks, laps and tables.", "why_tests_cant": "The library strips with two searches with regular expressions over every position, Python strips the same text a second time with its own idea of a blank; tests use a prefix without blanks, where both do nothing.", "anchors": ["src/main/c/fastestlapc.cpp: ltrim, rtrim, trim, optimal_laptime", "src/main/python/fastest_lap.py: optimal_laptime"]}
{"id": "C274", "title": "An output of a vehicle can be read from Python", "statement": "vehicle_get_output called from Python returns the number that the library computes for that vehicle, state, control, arclength and name of an output; the process ends for a vehicle or an output that does not exist.", "quantifier": "all libraries of vehicles, all names, states and controls of any length, all arclengths", "why_tests_cant": "tests call the function of the library from C++; the Python function that wraps it has no test, and a wrapper is right only if it is right for every vehicle and output", "anchors": ["src/main/python/fastest_lap.py: vehicle_get_output", "src/main/c/fastestlapc.cpp: vehicle_get_output"]}
{"id": "C275", "title": "Printing a variable from Python prints all of it", "statement": "print_variable called from Python prints the complete text of the variable of that name, whether it is a vehicle, a track, a vector or a scalar; it never prints a part of it or another variable, and the process ends if there is no such variable or if its text does not fit into the buffer.", "quantifier": "all contents of the tables, all names, texts of any length, all ways to write vehicles, tracks and numbers as text", "why_tests_cant": "tests print small variables; the text of a variable can have any length, and only some lengths are wrong", "anchors": ["src/main/python/fastest_lap.py: print_variable", "src/main/c/fastestlapc.cpp: print_variable_to_string, print_variable_to_std_string"]}
