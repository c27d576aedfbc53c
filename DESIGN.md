# Formal model of fastest-lap: design

Target: `juanmanzanero/fastest-lap` (C++), read in `/repo`. Prover: Lean 4.33.0 + Mathlib.

## 1. How the model is built

* One Lean file per area under `lean/Verif/Model/`, written function by function. Every
  definition quotes the file and lines it models and says what was simplified.
* `lean/Verif/Props/` holds the property theorems only, each next to an `example` that
  meets its hypotheses. `lean/Verif/Lemmas/` holds helper lemmas. Small specification
  vocabulary (what the English says) is in `lean/Verif/Spec/` or at the top of the Props file,
  and does not use the helpers of the model.
* Outcome of a call: `Res α = ok a | throw | ub`. `throw` is a C++ exception
  (`fastest_lap_exception`, `std::out_of_range`, ...). `ub` is undefined behaviour
  (out-of-range `operator[]`, `front()` of an empty vector, wrapped size, buffer overflow).
  Theorems about accepted calls say `= .ok ..`, so they also exclude `ub`.
* `scalar` (C++ `double`, `CppAD::AD<double>`) is modelled by an exact ordered field `K`
  (or by the reals `ℝ` where `sin`, `sqrt`, `atan` are used). Rounding, overflow, NaN and
  infinities are not modelled. This is the main idealisation.
* `size_t` is `Nat`; wherever the code subtracts from or converts to `size_t` and can wrap,
  the wrapped case is an explicit branch of the model.
* `std::vector` is `List`; maps with string keys are association lists with unique keys.
* Library calls not present in `/repo` (lion-cpp: linear algebra, `sPolynomial`, Ipopt, XML
  DOM; the C++ standard library) are parameters or re-implemented from their contract:
  `std::upper_bound` is modelled as the halving search of the standard library.

## 2. Trusted base

* Lean's kernel and the axioms `propext`, `Classical.choice`, `Quot.sound`
  (`#print axioms` per theorem is recorded in section 6). No axioms are added.
* The hand translation C++ -> Lean (the citations make it reviewable), and the idealisations above.
* Not modelled: Ipopt/CppAD numerics and convergence, XML/KML text parsing and printing of
  doubles, threads (the library has none), file input/output, floating point rounding.

## 3. Plan per property

| id | model | proof |
|----|-------|-------|
| C01 | `Model/Transcription`: packing loop of `compute_direct` and loader of `FG_direct` over `List K` with a running cursor | induction over nodes and controls: loader consumes exactly what the packer emitted |
| C02 | same, plus bounds lists and `n_variables` formula | induction, counting |
| C03 | constraint emission of `FG_direct` as list, `n_constraints` formula | induction, counting |
| C04 | packing of `compute_derivative` with the missing `break` | expected to fail for CONSTANT: prove negation with witness and `_partial` for sets without CONSTANT |
| C05 | constraint emission of `FG_derivative` | counting |
| C06 | `Model/Laptime`: the two quadratures and the penalty | induction over the mesh |
| C07 | penalty | sum of non-negative terms is zero iff each is |
| C08 | penalty of the derivative form with the `[i-i]` index | expected to fail: negation + `_partial` |
| C09 | quadrature | induction, positivity |
| C10 | quadrature | telescoping sum |
| C11 | integral-quantity quadrature as coded | expected to fail: negation + `_partial` for open or sigma = 1/2 |
| C12 | equality rows | algebra per row, induction |
| C13 | `check_inputs` as decision function | equivalence with a stated predicate |
| C14 | `check_inputs` | expected to fail: negation |
| C15 | bounds lists | induction over nodes |
| C16 | sensitivity formula over ℝ | `HasDerivAt` |
| C17 | sensitivity quadrature | `HasDerivAt` of a finite sum by induction |
| C18 | sensitivity export | expected to fail: negation + `_partial` |
| C19 | `Model/Control`: check, dissipation reset | case analysis, induction |
| C20 | hypermesh lookup by halving search | search = first element greater than s on sorted lists; then refinement |
| C21 | `control_array_at_s`, with derivative variant | induction over controls; value-and-derivative lookup is `ub` on validated input (disagreement) |
| C22 | `compute_statistics` fold | induction |
| C23 | `Model/Parameter`: constructor | equivalence with a stated predicate |
| C24 | `operator()` | order/field reasoning on the interval found by the search |
| C25 | `operator()` | expected to fail: negation + `_partial` |
| C26 | set/get of flat vector | induction with `take/drop` |
| C27 | `add_parameter` | invariant by induction over histories |
| C28 | `Model/Registry`: five tables and the calls as a transition function | invariant; `circuit_preprocessor` breaks it: negation + `_partial` over the other calls |
| C29 | registry | frame invariant over histories |
| C30 | registry | case analysis |
| C31 | pattern -> regex matcher | refinement to a glob specification for patterns without metacharacters (partial); negation for '.' |
| C32 | registry | case analysis |
| C33 | buffer as bounded array | negation at exact length + `_partial` |
| C34 | download guards | case analysis |
| C35 | tokenizer of the alias list on `List Char` | induction over aliases |
| C36 | `Model/Kerb`: append | negation for first kerb + `_partial` invariant |
| C37 | `evaluate_generic` | induction |
| C38,C39,C40 | `Model/TrackByArcs` over ℝ | induction over segments; C40 negation + partial |
| C41,C42,C43 | `Model/Road` over ℝ | derivatives / trigonometric identities |
| C44 | `Model/Engine`, power curve a parameter | case analysis, continuity at the ends |
| C45,C46,C47,C48 | `Model/Tire` over ℝ | inequalities |
| C49..C53 | `Model/Axle`, `Model/Chassis` | algebra |
| C54 | index lists of the classification | finite set reasoning for every size |
| C55 | four copies | induction over histories, exception in the middle is a disagreement |
| C56 | extra constraints | algebra |
| C57 | preprocessor layout | induction |
| C58 | boundary reconstruction over ℝ | trigonometric identities |
| C59 | reader | induction |
| C60 | unwrapping loop | induction, contract of `wrap_to_pi` is a parameter |
| C61 | `Model/Registry`: `optimal_laptime` as a transition on the tables | frame invariant; leftovers of the error path: negation + `_partial` |
| C62 | `Model/Registry`: the writers of names with a buffer size | induction over the names; two writers ignore the size: negation + `_partial` |
| C63 | `Model/Registry` | case analysis over what is requested, induction over the list of variables |
| C64 | `Model/Transcription`, `Model/Cost`: rows and their bounds | induction over nodes, equal shape of two emission loops |
| C65 | `Model/Transcription`: the size checks of a warm start | equivalence with equality of sizes |
| C66 | `Model/Transcription`: bounds of integral quantities | induction over the requested names |
| C67 | `Model/Registry`: tokenizer of the alias list | induction over characters; tabs: negation + `_partial` |
| C68 | `Model/Kerb`: `compute` | invariant of the scanning loop; last kerb: negation + `_partial` |
| C69 | `Model/Kerb`: `augment_track_limits` | induction over points |
| C70 | `Model/Arcs` | algebra at the junction; negation + `_partial` |
| C71 | `Model/Arcs` | case analysis of the segment found |
| C72 | `Model/Arcs` | `HasDerivAt` of the offset line |
| C73 | `Model/Road` | derivative of the rotation matrix |
| C74 | `Model/Powertrain`: `get_power` | case analysis; negation + `_partial` |
| C75 | `Model/Powertrain`: the differentiable torque | `HasDerivAt`; negation + `_partial` |
| C76 | `Model/Arcs` | case analysis, definedness |
| C77,C78 | `Model/Powertrain`: the kart axle of six degrees of freedom | linear algebra, `HasDerivAt`; negation + `_partial` |
| C79 | `Model/Tyre`: lateral-only tyre | algebra; negation + `_partial` |
| C80 | `Model/Tyre`: parameters of the tyres | case analysis over the names |
| C81 | `Model/Tyre`: simple magic formula | monotonicity of sin and atan; negation + `_partial` |
| C82,C83 | `Model/Tyre`: forces, dissipation, moments | inequalities; power balance by algebra; negation + `_partial` for the balance |
| C84 | `Model/Tyre`: standard magic formula | `HasDerivAt` at zero slip |
| C85 | `Model/Tyre` | evaluation at the peak; negation + `_partial` |
| C86..C89 | `Model/Chassis`: momenta, forces and torques | vector algebra, derivatives of rotations; negation + `_partial` where the code departs |
| C90,C91 | `Model/Chassis`: roll balance, accelerations | linear algebra |
| C92,C93 | `Model/Chassis`: aerodynamics | vector algebra; negation + `_partial` |
| C94 | `Model/Chassis`: understeer indicator | algebra; negation + `_partial` for the mirror image |
| C95,C96 | `Model/Chassis` | trigonometric identities, inequalities |
| C97 | `Model/Routing`: the nested `set_parameter` | refinement to an assignment on paths, induction over histories |
| C98 | `Model/Routing`: `is_ready` | invariant over histories; negation + `_partial` |
| C99 | `Model/Routing` | invariant over histories |
| C100 | `Model/Routing`: XML writer and reader | round trip by induction over the parameters; negation + `_partial` |
| C101,C102 | `Model/Routing`: declared parameters, XML reader | refinement, equivalence with a stated predicate |
| C103 | `Model/Transcription`, `Model/F1`: rate bounds | equivalence; negation with the car of the repository |
| C104 | `Model/F1`: indices, names, reading of the arrays | evaluation of the write sequences |
| C105 | `Model/F1`: the evaluation with derivatives | negation + `_partial`; index arithmetic |
| C106 | `Model/F1`: composed equations of motion | symmetry carried through wheel, axle, chassis and road |
| C107 | `Model/F1` | power balance through wheel, axle and chassis; negation + `_partial` |
| C108,C110 | `Model/F1`: steady state | equivalence by linear algebra; evaluation of write sequences |
| C109 | `Model/F1`: curvilinear and cartesian roads | reduction of both to the same input |
| C111 | `Model/F1`: integral quantities | inequalities of C82, algebra |
| C112 | `Model/F1`: extra constraints | monotonicity of linear interpolation; negation + `_partial` |
| C113 | `Model/F1` and `Model/Transcription` | induction along the lap; negation for the elevated case + `_partial` |
| C114 | `Model/Preprocessor`: bounds | induction over points |
| C115 | `Model/Preprocessor`: initial heading | inequalities; negation + `_partial` |
| C116 | `Model/Preprocessor`: `FG` of the fitting problem | induction over elements, equivalence row by row |
| C117 | `Model/Preprocessor`: cost | induction, cyclic sums; negation + `_partial` |
| C118,C119 | `Model/Preprocessor`: arclengths and errors | induction over points |
| C120,C121 | `Model/Preprocessor`: coordinates and initial frame | algebra over ℝ |
| C122,C123 | `Model/Track`: `Track_by_polynomial`, order-1 polynomials as piecewise linear functions | induction over nodes |
| C124,C125 | `Model/Track` | values at the middle of an element; negation + `_partial` |
| C126 | `Model/Track`: planar curves | `HasDerivAt` in polar form |
| C127 | `Model/Track`: `has_elevation` | membership after closing the lists |
| C128 | `Model/Mesh`: the meshing loop with explicit fuel | termination bound from the Archimedean property, invariant of the loop |
| C129 | `Model/Mesh` | invariant of adjacent elements; negation + `_partial` |
| C130 | `Model/Mesh`: breakpoints, search a parameter | induction over breakpoints; negation + `_partial` |
| C131,C132 | `Model/Mesh`: trimming | list equality of the copied range; inner products over ℝ; negation + `_partial` |
| C133,C134 | `Model/Path`: stations, vectors of `Minimum_curvature_path` | running index as writes at computed positions; negation + `_partial` |
| C135 | `Model/Path`: bounds, normal vector | convex combination over ℝ; negation + `_partial` |
| C136,C137 | `Model/Path`: `FG` on a path of any number of points | induction over elements; negation + `_partial` |
| C138,C139 | `Model/Path`: `Fitness_fcn` on `Model/Arcs` | induction over points, derivatives on arcs; negation |
| C140,C145 | `Model/SteadyState`: `Steady_state`, vehicle and optimiser as parameters | invariant of the attempts; negation + `_partial` |
| C141,C144 | `Model/SteadyState`: loop of `gg_diagram` | induction over points; negation + `_partial` |
| C142,C143 | `Model/SteadyState`: enlargement of the ranges | invariants and growth of the range by induction over attempts; negation + `_partial` |
| C146,C149 | `Model/LapFile`: `xml` and `construct_from_xml` on a document of paths and numbers | paths are distinct, so lookups find what was written; induction over inputs and controls; negation + `_partial` |
| C147,C148 | `Model/LapFile` | inversion of the reader and case analysis of the writer; negation + `_partial` |
| C150,C151,C154 | `Model/CircuitFile`: `xml` and the constructor from a document, with `Kerb` | paths are distinct, so lookups find what was written; negation + `_partial`; C154 through `Model/Track` |
| C152,C153 | `Model/CircuitFile` | inversion of the reader and case analysis of the writer; negation + `_partial` |
| C155,C156,C165 | `Model/Kart`: `Chassis_car_6dof::update`, flat road; `Spec/Kart`: `Follows`, a motion with the derivatives the code gives | derivatives of rotated vectors over ℝ; `FirstOrderRate` is the derivative of the angular momentum of a body with attitudes scaled by e, at e = 0; negation + `_partial` |
| C157 | `Model/Kart`: `Euler_m`; `linsolve` a parameter (`Solver`) | determinant; two solvers that differ on the singular matrix |
| C158,C159 | `Model/Kart`: `Axle_car_6dof::update`, tyres from `Model/Tyre` | derivatives of the positions of the wheels; negation + `_partial` |
| C160,C161,C162,C167 | `Model/Kart`: steady-state functions | algebra over the solution; explicit kart as the witness |
| C163,C164,C166 | `Model/Kart`: names, limits, constructor, `change_track` | case analysis of the indices |
| C168 | `Model/Kart` with mirrored parameters, inputs and road | commutation of the mirror with every step of the evaluation; uniqueness of the solution of the linear system; negation + `_partial` |
| C169 | `Model/Kart` with `Model/Road` | derivative of the position in the plane; equality of the other derivatives |
| C170,C171,C172,C173,C174,C175 | `Model/LapOptions`: `Optimal_laptime_configuration` on a tree of XML elements; the reading of numbers a parameter (`Texts`) | inversion of the reader (`Known`), induction over the entries for the last one, acceptance as an equivalence; negation + `_partial` |
| C176,C177,C179 | `Model/LapOptions`: `construct_control_variables`, `compute_optimal_laptime` up to the optimisation, with `Model/Control` and `Model/Transcription` | case analysis of the types; reduction to C19; negation + `_partial` |
| C178,C180 | `Model/LapOptions`: the vectors saved after the optimisation, vehicle a parameter | induction over the points; negation + `_partial` |
| C181,C182 | `Model/Kart` with `Model/Powertrain` and `Model/Chassis` | derivative of the kinetic energy; rotation to fixed axes |
| C183,C184,C185 | `Model/CircuitOptions`: `Circuit_preprocessor_configuration` and the choice of constructor; files and constructors are parameters | inversion of the reader (`Known`), acceptance as an equivalence; negation + `_partial` |
| C186,C187 | `Model/CircuitOptions.job` run by `Model/Registry.runCircuit` | induction over the outputs; negation + `_partial` |
| C188 | `Model/LapSolve.visitAll`, `fgOf`: the cost-function object with the inputs and controls it keeps | invariant of the object (`Fresh`) by induction over the evaluations; loading overwrites all that is read |
| C189,C190 | `Model/LapSolve`: from the request to the lap (`setUp`, `finish`, `exportSolution`), optimiser a parameter | composition of C01, C13, C64 with the export loop; rows of the constraints read back as equations (`Obeys`) |
| C191 | as C190 | every lap that fits the mesh is the image of a vector (`exists_vector`), feasible when the lap obeys (`within_of_obeys`) |
| C192 | `Model/LapSolve.restart` | round trip: preparing the exported lap gives the same frames, limits and packed vector |
| C193 | `Model/LapVehicles`: both vehicles as the vehicle of `Model/LapSolve` | well-formedness and rate bounds of both vehicles, then C189 and C103; negation + `_partial` |
| C194,C195 | `Model/LapVehicles` with `Model/F1`, `Model/Kart` and `Model/Road` | both vehicles do not look at the clock, so C190 applies; the rows of the equations are computed from the forces of the model (C155, C107) |
| C196,C197 | `f1Steady`, `kartSteady` (Model/LapVehicles): the vehicles as the steady-state application reads them, on the models of F1, Kart and SteadyState | composition of C140, C141 with the equations of the vehicles; the constraints are rewritten as forces and moments up to a tolerance |
| C198,C199 | Model/SteadyCommand: commands `steady_state` and `gg_diagram`, arrays of the caller as lists | composition with C196, C197; induction over the written points; negation by a solver that never succeeds and by unknown names |
| C200,C201 | `Model/Centreline`: `compute_averaged_centerline` with its three meshes; interpolation and search are parameters | C128–C130 for the meshes; induction over the lines for arclengths and midpoints; loops take a number of rounds that is shown not to matter |
| C202 | `Model/CircuitFit`: the constructors and `compute`, the optimiser a parameter | every read is shown to be in range by the lengths of the vectors (`setup_ok`, `finish_ok`) |
| C203 | as C202 | the constraints of the program are read back as equations (`obeys_iff`), the bounds as ranges (`within_iff`) |
| C204 | as C202 | every track is a vector of the program (`represent`), feasible when it obeys; `_partial` |
| C205 | as C202; distances are distances to the polygons (`SquaredDistance`) | cost rewritten as a sum over the elements (`cost_eq`); negation by an open road with bent boundaries; `_partial` |
| C206 | as C202 | composition with C60, C121; differences by induction |
| C207 | `f1Eval` integrals, `finish` of the lap; spec `f1Spent`, `alongLap` | C190 and C66 at the nodes; quadrature rewritten with time per metre |
| C208 | `maxLonAD`, `maxLonNum`, `ggAD`, `ggNum`; spec `Holds`, `Exact` | every steady state is a feasible point of the program solved (`lon_best`) |
| C209 | `computeFit` with the errors of circuit_preprocessor.hpp; spec `Distance` to a polygon | the loop over the boundary points is a maximum and a quadrature (`errorLoop_integral`); distances are those of C202 |
| C210,C211 | `f1Vehicle` with `t.elevated`, `Chassis.update`, `Road.update`; spec `F1Climb` (Newton and Euler in turning axes), `excess` | the rows of the evaluation equal the laws (`f1_any`, `f1_any_rows`); C190; witness lap `hill_lap` for the negation |
| C212,C213 | `Model/Propagation`: `propagate_vehicle`, `compute_propagation`; lion's time step, defaults and documents are parameters (`Lion`, assumption `Solves`) | the rows of the evaluation equal the laws (`f1_climb`, `f1_onPlane`, `kart_element`, `kart_onPlane`); case analysis of the command; negations for unknown vehicles and other roots |
| C214,C215 | `Model/Propagation`: `Mounted` vehicles, `Call` and `Call.op` as operations of `Model/Registry` | case analysis of one call (`step_same`, `step_isOn`, `step_puts`), induction over the calls |
| C216,C217 | `Model/Python`: create, download and type calls on top of `Model/Registry`, with `c_int` and null-terminated texts; a C++ exception ends the process (`aborted`) | C29 for the calls in between; induction over the requested names |
| C218 | `optimalLaptime`, `requested`; `configure` of `Model/LapOptions` | composition of C63, C28, C170, C219; negations by the shape of the options; `_partial` |
| C219 | `Model/VehicleNames`: the keys of `get_outputs_map`, `vehicle_type_get_sizes`, `vehicle_type_get_names` | membership by induction over insertions; distinctness by evaluation of the fixed name lists; C62 for the buffers |
| C220,C221 | `ggDiagram`, `trackData`, `trackCoordinates` on top of `Model/SteadyCommand`, `Model/TrackDownload` | composition with C199, C34; negation for unknown vehicles; `_partial` |
| C222,C229 | `Model/Outputs`: the maps of outputs with their values, `getOutput`, `getOutputNames`; the order of the unordered map is a parameter | distinctness of the names (C219) makes lookups exact (`find_values`); induction over the buffers; C229 negation with buffers below 44 bytes; `_partial` |
| C223,C224,C225,C228 | `f1Track`, `kartTrack`: the states of tyres and chassis after an evaluation, from `Model/F1`, `Model/Kart` | values looked up in the table and related by C86, C91, C92, C95 |
| C226,C227 | `f1Track` positions and attitude; spec `Drives` (motion along a road), `forward`, `attitude` | C41 and the derivative of the turned axes (`toWorld_deriv`); witness on a banked road; `_partial` for C226 |
| C230,C231,C232,C233 | `step` of `Model/Registry`; spec `creation`, `Value.type`, `HasVehicle` | case analysis of one call on what is stored under the name; negation for the calls that ignore unknown vehicles; `_partial` for C233 |
| C234 | `step`, `run` of `Model/Registry`; spec `CanAdd` | one call keeps a name free unless it is asked to use it (`C234_call`), induction over the history |
| C235 | `f1Track`, `kartTrack` and the equations of `Model/F1`, `Model/Kart`; spec `Obeys`, `Accelerates` | derivative of the speed from the equations of motion; the outputs are looked up in the table |
| C236 | `f1Track`, `kartTrack` of mirrored vehicles; spec `Mirrored` | the states of the mirrored tyres and chassis are the mirrored states (`f1Track_mirror`, `kartTrack_mirror`), C94 for the indicator; negation for vehicles that go straight; `_partial` |
| C237 | `Model/Frames`: constructors, copies, assignments and ends of tyres, axles and chassis as operations on a memory of frames with parent pointers; spec `stepValues` (vehicles as values), `Chain` | refinement: each vehicle owns nine neighbouring frames apart from the others (`Sim`), kept by every operation, induction over the program |
| C238 | `newPoweredAxle`, `copyPoweredAxle`, `freePoweredAxle` | negation for every memory; nothing positive is provable |
| C239 | `Model/PathSolve`: problem, call of the solver (a parameter), export of its answer; spec `OnSections`, `InRange`, `Continuous` of the path read from the members | the vector of the solver is a path (`vecCourse`), its bounds are `InRange` (`inRange_iff`), its constraints `Continuous` (`continuous_iff`) |
| C240 | the same; spec `Exact` solvers, `openCost`, `lapCost` | every competing path is a feasible vector (`pack`, `feasible_of_course`); cost by C137; `_partial`. Negation: a banked circle with two stations, where the constraints leave one length free, whose best value differs between the two costs |
| C241 | `xml`, `commas` | the lists have one number per station; negation for tracks made of arcs; `_partial` |
| C242 | `Model/PoweredAxle`: height, tyres (those of the kart, `Kart.wheelUpdate`), derivatives | the series of chassis and tyre at the height of the constructor (`tyres_eq`), then Newton's laws, multiplied by the speeds |
| C243,C244 | `Model/TrackPlanar`: the samples of every block, headings by `atan2` | C126 at every sample; `Complex.arg`; negation for every curve that passes half a turn or closes, witness a parabola; `_partial` |
| C245 | `Model/Outputs.kartTrack`: outputs of the kart on a track | `HasDerivAt` of the reported positions from the equations of motion (`KartDrives`); negation with a kart that is being steered; `_partial` |
| C246 | `Model/LapOutputs`: the map of outputs at a point of the lap | C178 for the vectors saved and C222 for the value returned; the state depends on the saved entries only |
| C247 | `Model/Cost`, `Model/F1`, `Model/LapVehicles`: the equations of the lap with the F1 car | mirror image of inputs, controls, track and request (`Spec/LapMirror`, `Spec/F1`); every node, row and integral of the mirrored lap from the lemmas of C106; then the minimum (C191) in both directions |
| C248 | `Model/Cost`, `Model/Kart`, `Model/LapVehicles`: the equations of the lap with the kart | as C247 with the lemmas of C168, for karts with `betaL = -betaR`; counterexample to the equations otherwise |
| C249 | `Model/Path`: `arcsNlp`, `arcsFitness`, `computeArcs` | bounds and feasibility of the problem, then the assumptions on the solver; on a circle the second differences add up to zero, so that the cost exceeds that at 10 m inside by a positive multiple of the missing displacement |
| C250 | `movedVehicle`, `movedRequest` (specification) for the model of the closed lap | a permutation of nodes and elements (`turn`) carries every equation, limit, duration and penalty over; sums over the mesh are re-indexed; negations by a cart on three nodes |
| C251,C252,C253 | `Model/Cost`, `Model/LapSolve`: two requests that are compared | every lap of the one request, with its controls rewritten to the other definition, obeys the equations and limits of the other and costs the same or less; then the minimality of the computed laps (C191). Optimisers are a parameter that is assumed to return a minimum |
| C254 | the same with the weights of the smoothing penalty scaled | the penalty is linear in the weights; exchange argument between the two best laps |
| C255 | `turnCircuit`, `turnWind` (specification) for the models of the laps of both vehicles and of the outputs | the road frame of the turned track is the turned frame; the wind in body axes is the same because the rotation about the vertical cancels; the vehicles as seen by the lap are equal functions, so the laps are equal. The outputs follow by comparing the states name by name |
| C256 | `Model/Track`: the track made from the data of a circuit | linear interpolation commutes with affine maps, by induction over the nodes; the kerbs depend on the edges only; negation by a flat ring that is lifted by one metre |
| C257,C258 | `Model/Mesh` (trimming), `Model/Preprocessor`, `Model/Fit`; the closest point on the map is a parameter | the conversion to metres uses longitudes relative to the first right point only, so every stage gets the same data; the ends of a trimmed side are the points that were found; negation at 60 degrees north by an explicit road |
| C259 | `Model/LapOptions`, `Model/F1`, `Model/Kart` (bounds of the variables), `Model/Transcription` | entries that do not name a variable leave its bounds; the defaults are the tables of the vehicles, compared name by name with the ranges in the specification; C190 gives the bounds at the nodes |
| C260,C261 | `Model/Routing`: the car, `set_parameter` and the constructor from a document | both ways give the car described by a value and a flag for each path; such cars are equal when values and flags agree on the documented paths; the last value set is the only one when paths are distinct |
| C262,C263 | `Model/LapOptions`, `Model/CircuitOptions`, `Model/Propagation`: reading of the options | the first child of a name does not depend on the order, nor on other names; effects of entries with different names on the configuration commute, so the loop over the entries is invariant under permutations (induction over the permutation) |
| C264,C265 | `Model/Path`, `Model/PathSolve`: the problem of the minimum curvature path; the solver is a parameter | the normal, the direction of travel and the rows of the constraints are equivariant under rotations about the vertical and under the reflection; the cost does not contain the heading and is even in the mirrored rates; the minima agree because the transformation can be undone |
| C266,C267 | `Model/CircuitFit`, `Model/Preprocessor`: starting guess, bounds, equations and cost of the fit; search, `wrap_to_pi` and optimiser are parameters | distances to lines, the equations of the track and the start and finish lines are equivariant under rotations about the vertical; the headings of the chords change by the angle up to whole turns, which the unwrapping turns into a constant; the two least misfits agree because the transformation can be undone (C203, C204 used for both fits) |
| C268,C269 | `Model/CircuitFit`, `Model/Preprocessor`: starting guess, bounds, equations and cost of the fit; search, `wrap_to_pi` and optimiser are parameters | each equation, edge and line of the mirrored track is that of the track with the sign of the mirrored quantities; the headings of the chords change their sign up to whole turns, and the wrapped differences do unless they are half a turn, which `NoReversal` excludes; the two least misfits agree because the mirror image of the mirror image is the original |
| C270 | `Model/Centreline`, `Model/Mesh`, `Model/CircuitFit`: `averaged`, `along`, `mesh`, `sizeAt`, `compute`; search and interpolation are parameters assumed to commute with turning and moving (`Turns`) | distances, hence arclengths and sizes asked for, are those of the original; the mesh is the image of the mesh because it depends on positions only through these; midpoints and half-widths are affine; then C267 |
| C271 | `Model/CircuitFit`: `compute`; search is a parameter | distances found are unique; induction over the searches along a line shows that the indices handed on do not matter |
| C272 | `Model/Centreline`, `Model/Mesh`: `sampled`, `recentred`, `averaged`; search and interpolation are parameters assumed to commute with mirroring (`Mirrors`) | given mirrored cross-sections the second half of the computation is mirrored, as for C270; the full statement `EstimateMirrors` is refuted with a search by projection and a straight road |
| C273 | `Model/Trim` (`trim` of the library with its two regular expressions, `strip` of Python), `Model/LapOptions`, `Model/Python` | induction over the positions of the search; a stripped text is unique; negation by a prefix that ends in a no-break space |
| C274 | `Model/PythonOutput` on top of `Model/Outputs` | from C222 through the wrapper; negation: the result is dropped |
| C275 | `Model/PythonPrint`; how values are written as text is a parameter (`Printer`) | cases over the five tables and the length of the text; negation for a text as long as the buffer |

## 4. Disagreements between code and property

For each of these the negation (or the exact defect) is proved with a concrete witness, and the part that
holds is the theorem with suffix `_partial`.

* **C04** The derivative-form optimisation vector is consistent for every control kind. The code violates C04: the missing break in compute_derivative stores a constant control twice, past the end of the vectors (proved for every accepted request with a constant control). Proved without constant controls. Theorems: `C04_false_constant_control`, `C04_derivative_size_partial`, `C04_derivative_round_trip_partial`, `C04_derivative_decode`.
* **C08** The derivative-form penalty of an element uses the control rates at its two ends. The code violates C08: dcontrols_dt[i-i] takes the left rate of every inner element at the first node (witness, and the penalty actually computed). Proved when all left rates have the same square. Hypotheses: accepted request, vehicle with consistent compile-time sizes, hypermeshes that increase and start at or before the mesh (see C20). Theorems: `C08_false`, `C08_actual_penalty`, `C08_rate_penalty_partial`.
* **C100** A car written to XML and read back is the same car. The code violates C100: the document has neither the wind nor the type of the tyres (witness). Proved for everything else. Theorems: `C100_round_trip_partial`, `C100_false`.
* **C103** Every control of a vehicle can be optimised at every node in derivative form. Exact condition proved. The promise is broken by the F1 car, which declares three rate limits for four controls: a fourth full-mesh control is undefined behaviour (witness). Theorems: `C103_derivative_built_iff`, `C103_false`, `C103_false_f1`.
* **C105** The equations with derivatives are those of the evaluation. The arclength argument is ignored: true where the track is as at the start (witness otherwise). The derivatives themselves are computed by an external library; the unpacking of its tables is proved. Theorems: `C105_values_partial`, `C105_false`, `C105_tables`.
* **C107** Energy is conserved by the whole car. Exact balance with the extra term of deformed tyres; as stated for undeformed tyres; witness for a deformed one. Theorems: `C107_rate`, `C107_energy_exact`, `C107_energy_partial`, `C107_false`.
* **C11** Integral quantities use the same quadrature as the lap time. The code violates C11: the closing element weighs its ends the other way round (witness with sigma=1, and the exact difference). Proved for open laps or sigma=1/2. Hypotheses: accepted request, vehicle with consistent compile-time sizes, hypermeshes that increase and start at or before the mesh (see C20). Theorems: `C11_false`, `C11_actual_closed`, `C11_same_quadrature_partial`.
* **C112** The slip of maximum force is allowed. True for loads up to the weight of the car; false above (witness within the bounds of the loads). Theorems: `C112_slip_allowed_partial`, `C112_all_tyres`, `C112_false`.
* **C113** The load transfer is shared as the roll balance says, along the whole lap. Proved on flat tracks. On elevated tracks the exact condition is proved, which alternating violations satisfy. Theorems: `C113_flat_partial`, `C113_elevated`, `C113_elevated_alternates`.
* **C115** The heading of a closed circuit closes after one turn. The code violates C115 on a circuit that crosses itself (figure of eight, witness). Proved for a total heading change of one turn. Theorems: `C115_closing_partial`, `C115_false`.
* **C117** The fit of a closed circuit does not depend on where it starts. The code violates C117 with elevation: the closing element lacks the pitch and roll terms (witness). Proved on flat circuits. Theorems: `C117_open`, `C117_closed_partial`, `C117_flat_start_invariant`, `C117_false`.
* **C124** Heading and curvature of a track agree. The code violates C124 on the closing element of every closed circuit: the heading jumps back by the full turn. Proved for the others. Theorems: `C124_heading_partial`, `C124_false`.
* **C125** Rates of pitch and roll agree with pitch and roll. The code violates C125: the rates are read from the second derivatives (witness). Proved where both agree. Theorems: `C125_rates_partial`, `C125_false`.
* **C129** Adjacent elements respect the maximum ratio. The code violates C129 at the last six elements, which are made equal (witness). Proved for the others. Theorems: `C129_ratio_partial`, `C129_false`.
* **C130** The size of elements changes at the breakpoints. The code violates C130 for a point in the segment of a breakpoint (two witnesses). Proved for the others. Theorems: `C130_sizes_partial`, `C130_same_segment`, `C130_false`.
* **C131** Trimming an open track keeps what is between start and finish. The code violates C131: the end points get altitude 0 (witness), and the behaviour is undefined if the finish is the first coordinate. Proved on the map. Theorems: `C131_trim_partial`, `C131_both_sides_partial`, `C131_undefined`, `C131_false`.
* **C132** Start and finish of an open track are checked. The code violates C132: a finish behind the start is accepted within one segment (witness). Proved for different segments. Theorems: `C132_inside`, `C132_outside`, `C132_rejects_partial`, `C132_false`.
* **C133** Stations of a minimum curvature path are checked. The code violates C133: only the first and last stations are checked (witness). Proved for them. Theorems: `C133_ends_partial`, `C133_false`.
* **C135** A minimum curvature path stays on the track. The code violates C135 on tracks made of arcs, where the bounds are always 10 m (witness; holds exactly from a half width of 10 m). Proved for the other circuits. Theorems: `C135_inside_partial`, `C135_arcs`, `C135_false`.
* **C136** The constraints of a minimum curvature path are those of a path. The code violates C136 on circuits with pitch: the vertical direction of travel has the opposite sign to the rest of the library (witness). The constraints are characterised exactly, and C136 proved without pitch. Theorems: `C136_filled`, `C136_opposite_pitch`, `C136_flat_partial`, `C136_false`.
* **C137** The cost of a minimum curvature path is the integral of its squared curvature. The code violates C137 on closed circuits with elevation: the closing element counts the rate of the heading only (witness). Proved for open circuits and flat closed ones; exact difference proved. Theorems: `C137_rotation`, `C137_closed`, `C137_open`, `C137_start_partial`, `C137_false`.
* **C139** On a track made of arcs the criterion ranks lines by curvature. The code violates C139: the criterion is (k - k^2 w + w'')^2, which decreases towards the inside of a corner while the curvature grows (witness). The criterion is characterised exactly. Theorems: `C139_centreline`, `C139_criterion`, `C139_false`.
* **C14** Accepted arclengths are increasing. The code violates C14: interior arclengths are not checked, and snapping the first one to zero can pass the second (witnesses). Proved when the request is increasing and its second arclength positive. Theorems: `C14_false`, `C14_false_snapped_start`, `C14_increasing_partial`.
* **C140** A steady state reported as solved is one. Proved with automatic differentiation. The code violates C140 with numerical Jacobians for vehicles whose unit of acceleration is not 1 m/s2 (witness); proved for unit 1. Theorems: `C140_solve`, `C140_lateral`, `C140_longitudinal`, `C140_numeric_partial`, `C140_no_steps`, `C140_false`.
* **C141** The g-g diagram has the requested points. Number, accelerations and steadiness of the points proved. The order of the branches is only guaranteed up to 0.6 m/s2 (proved); with an optimiser that stops early they cross (witness). Theorems: `C141_diagram`, `C141_no_points`, `C141_range`, `C141_order_partial`, `C141_order_false`.
* **C142** The range of the search does not limit the accelerations. The code violates C142 once its attempts are exhausted: a limit of the range is then reported as a solved maximum (witness). Proved: clear of the limits, or all enlargements used; and maximality over the initial range for an exact optimiser. Theorems: `C142_lateral_partial`, `C142_best`, `C142_longitudinal_partial`, `C142_false`.
* **C143** Lateral accelerations out of reach are rejected. The code violates C143 for negative lateral accelerations, which are never rejected (witness). Proved: rejected exactly above the maximum. Theorems: `C143_rejected_partial`, `C143_false`.
* **C144** Refining the g-g diagram does not change its points. The code violates C144 where an optimisation fails, because the next one starts from an earlier point (witness). Proved where the optimiser succeeds at first attempt. Theorems: `C144_refinement_partial`, `C144_false`.
* **C146** A saved lap is the lap that is read back. The code violates C146 for the laptime, printed with six decimals, and the dissipations, which are not saved (witness). Everything else proved for laps of any size. Theorems: `C146_round_trip_partial`, `C146_contents`, `C146_sizes`, `C146_false`.
* **C147** A damaged file is rejected by an exception. The code violates C147 for inputs with fewer numbers than points: memory is read past their end (witness). Proved for all other damages. Theorems: `C147_accepted`, `C147_rejected_partial`, `C147_false`.
* **C149** The lap read from a file is determined by the file. The code violates C149 for the flags of success and warm start and the number of iterations, which are not read (witness). Proved for the rest. Theorems: `C149_determined_partial`, `C149_saved_again_partial`, `C149_false`.
* **C150** A saved circuit is the circuit that is read back. The code violates C150 for options other than the weights, which are not saved, for weights and kerbs, printed with six decimals, for pitch and roll of circuits without elevation, and for the direction of open circuits and the local origin, which are not set (witness). Everything else proved for circuits of any size; equality proved where none of these matter. Theorems: `C150_round_trip_partial`, `C150_exact`, `C150_false`.
* **C151** A circuit that was read can be saved again. The code violates C151 without elevation: the circuit that is read has no pitch and saving it reads past the end (proved for every file of two dimensions). Proved with elevation. Theorems: `C151_saved_again_partial`, `C151_false`.
* **C152** A damaged circuit file is rejected by an exception. The code violates C152 for vectors shorter than the number of points: memory is read past their end (witness). Proved for all other damages. Theorems: `C152_accepted`, `C152_never_read`, `C152_rejected_partial`, `C152_false`.
* **C155** The momentum of the kart changes by the forces on it. Proved for a centre of mass over the origin of the road frame. The code violates C155 for any other (proved for all of them), which the parameters allow. Theorems: `C155_momentum`, `C155_off_centre_false`.
* **C156** The angular momentum of the kart changes by the moment of the forces. The code violates C156 whenever a turning kart is displaced vertically and slides: a term proportional to the displacement is missing. The missing term is given exactly, and C156 proved where it vanishes. Theorems: `C156_moment_partial`, `C156_moment_defect`, `C156_moment_false`.
* **C157** The accelerations of the kart do not depend on the solver of linear systems. The code violates C157 for large products of inertia: the matrix is singular at a pitch within the limits (witness). Proved for small ones. Theorems: `C157_determined_partial`, `C157_determined_false`.
* **C158** The tyres of the kart move with its wheels. The code violates C158 while the steering changes: its rate is not counted (witness). Proved for constant steering. Theorems: `C158_wheel_motion_partial`, `C158_wheel_motion_false`.
* **C159** The front wheels of the kart roll freely. Proved for tyres of the type "only lateral". Any other text, misspelt or not, gives locked front wheels (proved for all of them). Theorems: `C159_front_rolls`, `C159_front_locked_false`.
* **C161** A steady state of the kart is held. The code violates C161 for the rear axle, for which there is no equation (witness). Proved for all other states. Theorems: `C161_steady_held_partial`, `C161_steady_held_false`.
* **C163** Inputs and controls of the kart. The code violates C163 with direct torque: the torque is limited to 1 N m although its rate may be thousands. Everything else proved. Theorems: `C163_names`, `C163_meaning`, `C163_defaults`, `C163_guess`, `C163_steady_inside`, `C163_direct_torque_false`.
* **C164** The kart refuses tracks with elevation. The code violates C164: a change of track that throws has replaced the track (proved for all tracks with elevation). The exceptions are proved. Theorems: `C164_constructor`, `C164_change_track`, `C164_kept_false`.
* **C165** The reported acceleration of the kart is absolute. The code violates C165 for every kart that turns and moves. Proved for karts that do not turn. Theorems: `C165_acceleration_partial`, `C165_acceleration_false`.
* **C168** The mirror image of the kart does the mirror image. The code violates C168 for front axles whose steering does not lift one wheel as much as it lowers the other: the deformation is computed from one coefficient (witness). Proved for the others. Theorems: `C168_mirror_partial`, `C168_goes_straight`, `C168_mirror_false`.
* **C171** The initial speed of the lap is the one given. The code violates C171: the initial speed is ignored unless an element steady_state_speed is present too (proved for every document with it alone). Proved for documents with both. Theorems: `C171_initial_speed_partial`, `C171_initial_speed_false`, `C171_steady_state_speed_refused`.
* **C174** Exactly the documented options are accepted. The code violates C174: bounds of variables written as documented are always refused (proved for all names and values). What is accepted is characterised exactly. Theorems: `C174_accepted_iff_partial`, `C174_documented_false`.
* **C175** An open lap has a complete initial condition. The code violates C175: vectors that are too short leave the rest to what was in memory and longer ones are written past the end (witnesses). Proved: an initial condition is required and its entries are the first ones. Theorems: `C175_initial_condition_partial`, `C175_short_false`, `C175_long_undefined`, `C175_required`.
* **C177** An open lap starts from the given state and controls. The code violates C177 for controls that are constant or on a hypermesh, whose given value is ignored (witness), and the behaviour is undefined without points. Proved for inputs and full-mesh controls. Theorems: `C177_open_start_partial`, `C177_open_start_false`, `C177_no_points_undefined`.
* **C179** A warm start optimises what is asked for. The code violates C179: the points, controls and kind of lap are those saved, while the returned arclength is the given one (witness); with more points than saved the result is read past the end. The request that is solved is characterised exactly. Theorems: `C179_warm_start_partial`, `C179_needs_saved_lap`, `C179_arclength_false`, `C179_more_points`.
* **C18** In open simulations the fixed first node has zero sensitivity. The code violates C18 for controls: it clears the first control at all nodes instead of all controls at the first node (witness, and what is exported). Proved for the inputs. Theorems: `C18_false`, `C18_actual_controls`, `C18_actual_controls_derivative`, `C18_inputs_partial`, `C18_inputs_derivative_partial`.
* **C180** The returned sensitivities are the derivatives of the returned vectors. The code violates C180 for all variables except the velocity and the time, whose derivatives are returned as zero (proved for all of them). Proved for those two. Theorems: `C180_sensitivity_partial`, `C180_sensitivity_false`.
* **C184** Open and closed circuits are both computed. The code violates C184: no options with an open circuit give one, whatever the files (proved for every document). Proved for closed circuits. Theorems: `C184_closed_partial`, `C184_open_false`.
* **C185** The mesh of the circuit is the one asked for. The code violates C185: -k elements are accepted as 2^64 - k (proved for every k). Proved for numbers that are not negative and for refined meshes. Theorems: `C185_mesh_partial`, `C185_negative_false`.
* **C186** The vectors returned by circuit_preprocessor are those of the circuit. The code violates C186 for the measured boundaries: with fewer points than the circuit they are filled with zeros, with more they are written past the end (proved for all such circuits). Proved when the numbers of points agree. Theorems: `C186_stored_partial`, `C186_padded_false`, `C186_overrun_false`, `C186_file`.
* **C187** A circuit computation that fails leaves the stored variables as they were. The code violates C187: when an output name is taken the track has already been inserted (proved). Proved when no outputs and no file are asked for, and when the options are refused or the circuit cannot be computed. Theorems: `C187_failure_partial`, `C187_not_computed`, `C187_failure_false`.
* **C193** Every sensible lap of either vehicle can be computed. The code violates C193: a lap of the F1 car in derivative form with the brake bias given at every node has undefined behaviour (proved for every such request). Proved for the other requests and for the kart; in derivative form without constant controls (see C04). Theorems: `C193_f1_partial`, `C193_f1_false`, `C193_kart`.
* **C198** steady_state delivers a steady state or fails. Proved for the names of existing vehicles, and failure leaves the arrays unchanged. The code violates C198 for other names: the command returns normally (C198_false). Theorems: `C198_f1_partial`, `C198_kart_partial`, `C198_failure`, `C198_short`, `C198_false`.
* **C199** gg_diagram delivers steady states or fails. Proved: what is written, and that it belongs to steady states where the solver succeeded. The code violates C199: success of the solver is not checked (C199_false: a solver that never succeeds fills the arrays), and unknown names return normally. Theorems: `C199_f1_partial`, `C199_kart_partial`, `C199_defined`, `C199_false`, `C199_unknown_false`.
* **C204** A computed circuit fits the measurements best. Proved for flat circuits and for open ones. Missing: closed circuits with elevation, where the closing element of the cost lacks two terms (C117). For open circuits the distances are those to the closed boundaries (C205). Theorems: `C204_optimal_partial`.
* **C205** The misfit of a circuit is measured against the boundaries given. The code violates C205 for open circuits: the searches treat the boundaries as closed; a track away from both boundaries has cost 0 (witness, for every search that finds closest points). Proved for closed circuits. Theorems: `C205_closed_partial`, `C205_false`.
* **C211** The load transfer is shared as the roll balance says. Proved on flat tracks, and with elevation when sigma is 1. False on tracks with elevation otherwise: all equations are then classified as differential, so the algebraic roll balance is only imposed as a weighted mean over each element (witness: a converged lap that misses its share by a tenth of the weight). Theorems: `C211_shared_partial`, `C211_shared_false`.
* **C213** propagate_vehicle succeeds with the options given or reports and changes nothing. Proved for existing vehicles and options under the root `options`; arrays that are too short are undefined. The code violates C213 for unknown vehicles (returns normally) and for options under another root (silently ignored). Theorems: `C213_failure`, `C213_short`, `C213_outcome`, `C213_options_failure`, `C213_no_track`, `C213_options_partial`, `C213_false`, `C213_options_false`.
* **C214** A change of track puts the whole vehicle on the track and touches nothing else. Proved except that the code does not report an unknown vehicle (C214_false). Theorems: `C214_same`, `C214_change`, `C214_propagate`, `C214_false`.
* **C218** optimal_laptime of Python returns the saved names. Proved when all the variables are asked for with a prefix, except that the lap time and the integral quantities are not among the names returned. The code violates C218 for a list of variables (an empty list is returned) and without output_variables (an exception after the lap was computed). Theorems: `C218_all_variables_partial`, `C218_false_listed`, `C218_false_raised`, `C218_false_empty_prefix`.
* **C220** gg_diagram of Python is in units of g. Proved for existing vehicles. The code violates C220 for unknown ones: zeros are returned. Theorems: `C220_diagram_partial`, `C220_returns`, `C220_false`.
* **C226** Reported yaw is the direction of the car. Proved on flat roads. False on banked roads: heading and yaw are added although the heading is measured in the plane of the road. Theorems: `C226_heading_partial`, `C226_heading_kart`, `C226_heading_false`.
* **C229** vehicle_get_output_variable_names respects the buffers. Proved when the buffers are large enough. The code violates C229: the size of the buffers is not used, names that do not fit are written past the end. Theorems: `C229_names_partial`, `C229_errors`, `C229_overrun`, `C229_names_false`.
* **C233** A call with an unknown vehicle is an error. Nothing changes, but the code reports success for set_parameter, steady states, diagrams, change of track and laps of unknown vehicles. Theorems: `C233_unknown_partial`, `C233_unknown_false`.
* **C236** Outputs of a mirrored vehicle are mirrored. Proved for all outputs of a vehicle that turns. The code violates C236 for the understeer indicator of a vehicle that goes straight with steered wheels (C236_indicator_false). For the kart the equations of the rotation must determine it and the steering must lift one wheel as much as it lowers the other (as in C168). Theorems: `C236_f1_partial`, `C236_kart_partial`, `C236_straight`, `C236_indicator_false`.
* **C238** A copied axle model does not depend on the original. The code violates C238: the implicit copy constructor leaves the axle in the inertial frame of the original. Theorems: `C238_false`.
* **C240** No other path turns less than the minimum curvature path. Proved for open circuits, and for flat paths on closed ones. On closed circuits with slopes or banking the cost leaves out part of the closing element (C137_false), and it is false: on a banked circle every solver that finds minima returns a path that turns more than another admissible one (C240_false, C240_false_always). Theorems: `C240_open_partial`, `C240_closed_partial`, `C240_false`, `C240_false_always`.
* **C241** A computed minimum curvature path can be saved. The code violates C241 for tracks made of arcs: the lists that are written are empty and the loop bound size()-1 wraps. Theorems: `C241_saved_partial`, `C241_false`.
* **C244** The heading of a track built from a planar curve has no jumps. Proved while the direction stays within half a turn of the first axis. False otherwise: the headings are those of atan2 and are not unwrapped, so they jump by a full turn where the curve points backwards, and are equal at both ends of every curve that closes (C244_false_closed). Theorems: `C244_follows_partial`, `C244_false`, `C244_false_turn`, `C244_false_closed`.
* **C245** The reported wheels of a kart move with their reported velocities. In the plane without restriction (C245_plane). Vertically while the steering of the wheel does not change; false for a front wheel while it is steered, because the reported velocity leaves out the rate at which the steering lifts the wheel (C245_false). Theorems: `C245_plane`, `C245_moves_partial`, `C245_false`.
* **C248** Laps of a kart do not prefer left or right. Holds for karts whose steering lifts one front wheel as much as it lowers the other and whose rotation equations can be solved along the lap. For other karts it is false (C248_equations_false): the deformation of the chassis is computed with the lift of the right wheel only, so that the vertical acceleration of the mirror image differs (as in C168). Theorems: `C248_lap_partial`, `C248_best_partial`, `C248_laptime_partial`, `C248_equations_false`.
* **C249** On a track made of arcs the minimum curvature path is on the track and no path turns less. The bounds of the displacements are 10 m to either side whatever the width of the track, and the criterion is not the curvature (C139): on a circle the computed path is 10 m inside of the centreline, outside of the edges of a narrower track, and it turns more tightly than the centreline. Proved: within 10 m, hence within the edges of tracks at least 20 m wide, and optimal for the criterion of the code. Theorems: `C249_edges_partial`, `C249_best_partial`, `C249_false`.
* **C25** Outside its mesh a varying parameter keeps the value of the nearest checkpoint. The code violates C25: outside the mesh it returns the first/last value of the value list, not the value of the first/last checkpoint. Proved under the hypothesis that these coincide. Theorems: `C25_false_outside_mesh`, `C25_outside_partial`, `C25_continuous_partial`.
* **C250** The best closed lap does not depend on where it starts. the same laps obey, last and cost the same from every node, and so the best laps do; the full claim fails in the code for rates with a smoothing penalty (C08) and for integral constraints with weights other than 1/2 (C11), both shown by witnesses; controls on a mesh of their own are left out, they are not periodic Theorems: `C250_lap_partial`, `C250_best_partial`, `C250_laptime_partial`, `C250_false_penalty`, `C250_false_integral`.
* **C256** The data of a circuit mean the same elsewhere. everything holds except elevation under vertical moves: the track counts as elevated when its height differs from zero, so a flat circuit one metre higher is elevated, the kart rejects it and the F1 car uses other equations (C256_false) Theorems: `C256_track_partial`, `C256_false`.
* **C258** A trimmed open circuit begins and ends at the points of its boundaries closest to start and finish. the ends are the closest points on the map, where a degree of longitude is as long as one of latitude; the trimming searches in degrees and not in metres, so that at 60 degrees north a boundary of a road that runs north-east does not begin at the point closest to the start on the ground (C258_false) Theorems: `C258_ends_partial`, `C258_false`.
* **C272** The estimate of the centreline treats the two boundaries alike. The code violates C272: the nodes are placed along the right boundary, and the left one only supplies closest points (witness: a left boundary of 20 m and a right one of 10 m give an estimate of 10 m, their mirror image one of 15 m). Proved for circuits whose cross-sections placed along either boundary are the same. Theorems: `C272_estimate_partial`, `C272_false`.
* **C273** The prefix of a lap is the text of the options without the blanks at its ends, for the library and for Python. the library strips as stated; Python strips more kinds of blanks than the library, so that with a no-break space at the end of the prefix it returns a prefix under which nothing was saved (C273_false); proved for texts whose blanks are those of C Theorems: `C273_trimmed`, `C273_prefix`, `C273_python_partial`, `C273_download_partial`, `C273_false`.
* **C274** An output of a vehicle can be read from Python. the Python function ends with `return;` and never returns the number, whatever the library computes (C274_false); what holds is when the call returns and when the process ends Theorems: `C274_call_partial`, `C274_false`.
* **C275** Printing a variable from Python prints all of it. a text of exactly 2^20 characters passes the check of the library and its terminator is written behind the buffer (C275_false); proved for all other lengths Theorems: `C275_print_partial`, `C275_false`.
* **C28** A name denotes at most one variable. The code violates C28: circuit_preprocessor checks only one table (witness). Proved over all histories of the other calls, and for circuit_preprocessor when its names are not used by other kinds of variables. Hypothesis on optimal_laptime: output names contain no '/'. Theorems: `C28_call_keeps_names_unique`, `C28_names_unique_partial`, `C28_circuit_preprocessor_partial`, `C28_false_circuit_preprocessor`.
* **C31** Deleting by pattern removes exactly the matching names. The code violates C31 for patterns containing '.' and other regex metacharacters and for names with line breaks (witnesses). Proved for ordinary characters and '*'. Theorems: `C31_delete_partial`, `C31_delete_twice`, `C31_false_dot`, `C31_false_line_break`.
* **C33** Printing a variable never writes past the caller's buffer. The code violates C33 when the buffer has exactly the length of the text, and for negative sizes. Theorems: `C33_print_in_buffer_partial`, `C33_false_exact_length`, `C33_false_negative_size`.
* **C36** Kerbs of a side are ordered and do not overlap. The code violates C36: the first kerb of a side is not checked (witness). Proved for all the others. Theorems: `C36_ordered_partial`, `C36_all_positive_partial`, `C36_false`.
* **C40** Unknown segment kinds are rejected. The code violates C40: an unknown last segment is accepted with zero length (witness). Proved for all the other positions. Theorems: `C40_unknown_rejected_partial`, `C40_known_accepted`, `C40_false`.
* **C53** Default vehicle inputs lie inside their bounds. True for all controls and for all inputs but the tyre loads, whose default 0.25 has the wrong sign (witness). Theorems: `C53_all_set`, `C53_angles`, `C53_inputs_partial`, `C53_controls`, `C53_false`.
* **C56** Respecting the extra constraints keeps all the wheels on the track. The constraint ignores the longitudinal position of the axles and the rear track: true for a car aligned with the road and a rear track not wider than the front one; the exact overshoot and a witness are proved. Theorems: `C56_constraints`, `C56_overshoot`, `C56_wheels_inside_partial`, `C56_false`.
* **C61** A lap computation that throws leaves the stored variables as they were. The code violates C61: the lap time is stored before an unknown integral quantity or vector name is rejected (witness). Proved: nothing stored is changed or removed, and a taken name is detected before anything is stored. Theorems: `C61_lap_only_adds_partial`, `C61_taken_name_adds_nothing_partial`, `C61_false_leftover`.
* **C62** Names written to the caller never exceed the given buffer size. The code violates C62 for n_char = 0 and in variable_type, which ignores the size. Theorems: `C62_names_fit_partial`, `C62_false_zero_size`, `C62_false_variable_type`.
* **C67** Blanks around the names of an alias list are ignored. The code violates C67: a blank before a separator stays in the name (witness). Proved for blanks after the separators and around the whole list. Theorems: `C67_blanks_ignored_partial`, `C67_false`.
* **C68** Kerbs are placed exactly where the centreline is close to the edge. The code violates C68: a stretch that reaches the last sample gets no kerb (witness). Proved for all the others. Theorems: `C68_kerbs_placed_partial`, `C68_false`.
* **C70** A closed track made of arcs ends where it starts. The code violates C70: nothing checks that the last straight points to the start (witness). Proved when it does. Theorems: `C70_closes_partial`, `C70_false`.
* **C74** The reported engine power is the delivered power. The code violates C74: with a power curve the reported power is never written (witness). Proved in maximum-power mode. Theorems: `C74_reported_power_partial`, `C74_false`.
* **C75** The optimiser receives the derivative of the engine torque. The code violates C75: with a power curve the speed enters through its plain value (witness). Proved in maximum-power and direct-torque mode; with a curve the missing term is given exactly. Theorems: `C75_torque_derivative_partial`, `C75_curve_derivative_partial`, `C75_actual_curve`, `C75_false`.
* **C77** The kart tyres are deformed as the suspension equations say. The code violates C77 when the two steering coefficients are not opposite, which nothing checks (witness). Proved when they are. Theorems: `C77_tyres_consistent_partial`, `C77_false`.
* **C78** The vertical velocity given to a kart tyre is the derivative of its height. The code violates C78: the velocity due to a change of the steering angle is left out (witness). Proved while the steering angle is constant. Theorems: `C78_tyre_velocity_partial`, `C78_false`.
* **C79** A lateral-only tyre rolls freely. The code violates C79: when updated with a slip, the speed of a lateral-only tyre is overwritten (witness). Proved when updated with a speed. Theorems: `C79_rolls_freely_partial`, `C79_false`.
* **C81** The friction peak is reached at the declared slip. The code violates C81: the shape coefficient does not put the peak at the declared slip (witness). Proved: where the peak is, for shape factors in (1, 2]. Theorems: `C81_peak_partial`, `C81_false`.
* **C83** The reported dissipation is the power of the tyre forces. The code violates C83 for deformed tyres: the lever arms of torque and dissipation differ (witness and exact defect). Proved for undeformed tyres. Theorems: `C83_power_balance_partial`, `C83_defect`, `C83_moment`, `C83_false`.
* **C85** The friction coefficients are the declared ones. The code violates C85: coefficients below 1 are replaced by at least 1 (witness). Proved for coefficients of at least 1, up to the error of smooth_pos. Theorems: `C85_declared_friction_partial`, `C85_declared_slips`, `C85_false`.
* **C87** The reported velocity of the centre of mass is its velocity. The code violates C87 when the centre of mass is not above the origin of the road frame, which nothing checks (witness). Proved when it is. Theorems: `C87_com_velocity_partial`, `C87_false`.
* **C88** The angular momentum of the car follows the total torque. The code violates C88 for inertia matrices with products of inertia, accepted as parameters (witness). Proved for diagonal ones. Theorems: `C88_angular_momentum_partial`, `C88_false`.
* **C89** The reported torque is the moment of the forces about the centre of mass. The code violates C89: the moment arm of the aerodynamic force is reduced twice by the position of the centre of mass (witness and exact defect). Proved when the aerodynamic force is in line with it. Theorems: `C89_torque_partial`, `C89_defect`, `C89_false`.
* **C93** The aerodynamic forces grow with the square of the relative speed. The code violates C93: the speed is measured in the plane of the road only (witness). Proved for velocities in that plane. Theorems: `C93_magnitude_partial`, `C93_false`.
* **C94** The understeer indicator compares the wheels with the turning geometry. The code violates C94 for a car that goes straight (witness). Proved for a car that turns. Theorems: `C94_indicator`, `C94_ackermann`, `C94_mirror_partial`, `C94_false`.
* **C98** A car reports ready exactly when all its parameters were given. The code violates C98: brakes, engine and boost do not count (witness: ready without an engine power). Proved for all other parameters. Theorems: `C98_ready_partial`, `C98_complete`, `C98_false`.

## 5. What is modelled and what is not

Library functions that are not in /repo (lion-cpp and others) and what is taken for granted about them:

* `trapz`, `linspace`, `norm`, `dot`, `cross`, `normalize`, `DEG`, `KMH`, `g0`, `eps`: their mathematical meaning,
  or a parameter of the model where no value is needed.
* `smooth_pos`, `smooth_sign`, `smooth_max_alpha`: parameters; every hypothesis used (for instance that
  `smooth_pos` is not negative) is a hypothesis of the theorem.
* `sPolynomial`, `vPolynomial`: the power curve of the engine is a parameter; polynomials of order 1 built with
  `smooth = false` are piecewise linear functions; outside of their nodes they are not described.
* `Frame`: reduced to the rotations and translations the code builds; the composition is written out. For copies of vehicles
  (C237, C238): a pointer to the parent and other members, copied member by member; `set_parent` stores the address.
* `linsolve` (kart): a parameter that solves the systems whose matrix has a determinant other than 0 (`Solver`).
* `wrap_to_pi`: returns a congruent angle in `[-pi, pi]` (hypothesis).
* `find_closest_point`: a parameter; what the theorems need of it is a hypothesis (`Locates`, `FindsOnLine`, `FindsClosest`,
  `SearchesMap`, `LooksAtDifferences`). `FindsClosest` says that it finds the closest point whatever the index it starts from and the
  largest distance it looks at; `SearchesMap` says the same of the coordinates in degrees, and `LooksAtDifferences` that it uses
  differences of coordinates only. `Turns` (C270) says that the search and the polynomial of order 1 commute with turning and moving
  the line and the point, `Mirrors` (C272) that they commute with mirroring.
* `Polynomial` of order 1 with `smooth = false` in the circuit preprocessor: takes the given values at the nodes and is linear
  in between (`Interpolates`). `rotmat2ea` gives angles that turn the axes into the frame it is given (`Recovers`).
* `::set_parameter`, `read_parameters`, `write_parameters`, `Xml_document`: by what their names promise, on a list
  of paths and values. Text formats of numbers are not modelled.
* `Xml_element` (files of laps and circuits): `get_child` finds the first element of a path and throws if there is none; numbers
  printed with 17 digits are read back; `std::to_string` of a scalar (`printed`) and the vector of an element without
  text (`blank`) are parameters, and so is `to_bool` (`toBool`).
* `Xml_document` (options of a lap): a tree of elements; `has_element`, `get_element`, `get_child` find the first element of a
  path and the last two throw without one; `get_value(bool())`, `(int())`, `(scalar())`, `(std::vector<scalar>())` and `trim`
  are parameters (`Texts`); all but `trim` may throw. `trim` itself is modelled in `Model/Trim` (C273): `std::regex_replace` leaves out
  the leftmost match and goes on after it, `\s` is `std::isspace` of the C locale, `^` and `$` are the ends of the text only (no
  `multiline`); `str.strip` of Python with the blanks of Unicode.
* Ipopt, CppAD, the sensitivity analysis, `rotmat2ea`: their results are arguments. Nothing is claimed about
  convergence or optimality of Ipopt itself. C140–C145 (steady states) quantify over all optimisers that satisfy the constraints
  when they report success (`Accurate`), return vectors of the size they get (`Sized`) or find true optima
  (`Optimal`); each theorem names the assumption it uses, and over all vehicles (`Car`). C188–C192 (laps) quantify over all
  optimisers that return vectors of the sizes they get (`RightSizes`), are within bounds up to tolerances when they report
  success (`Reliable`) or are global minimisers (`Minimises`), and over all vehicles that do not look at the clock (`ClockFree`).
  C202–C205 (circuits), C239 and C240 (minimum curvature paths) quantify in the same way over the optimisers used there.
* `Crank_nicolson::take_step` (propagation): a parameter; C212 quantifies over all steps whose results satisfy the equations of
  the step up to the tolerance of the options (`Solves`); its default options are a parameter.
* Python (C216–C221, C273–C275): a C++ exception that leaves the library ends the process; `c_int` has 32 bits; texts handed over end at
  the first null character; `ElementTree` and lion parse the options to the same tree; `strip` is a parameter (modelled for C273); how a
  variable is written as text is a parameter (`Printer`).
* `std::unordered_map`, `std::vector`, `std::upper_bound`, `strcpy`, `<regex>` (for the fragment used): by the
  standard.

Not modelled at all: the MATLAB and JavaScript bindings, the examples and tests, `src/main` except
`src/main/c/fastestlapc.cpp` and `src/main/python/fastest_lap.py` (without its plots), printing to the screen, lion's propagators, the parts of the files below that
are not listed.

Modelled lines of /repo, from the comments of the definitions (`File.definition` is `lean/Verif/Model/File.lean`):

| file of /repo | lines -> definition of the model |
|---|---|
| `src/core/chassis/axle.h` | 120-134 `Outputs.axleValues`; 120-134 `VehicleNames.axleOutputs`; 125, 130 `Outputs.insertValues`; 125, 130 `VehicleNames.insertAll`; 138 `Frames.Frame`; 138-142 `Frames.Axle`; 138 `Frames.Role`; 138 `Frames.Chassis.address`; 140 `Routing.Axle.isReady`; 142-147 `VehicleNames.axleOutputs` |
| `src/core/chassis/axle.hpp` | 7-23 `Frames.Memory.push`; 7-23 `Frames.Memory.alloc`; 7-23 `Frames.newAxle`; 19-22 `Frames.Memory.setParent`; 26-43 `Frames.copyAxle`; 27-43 `Frames.Memory.get`; 28 `Frames.copyFrame`; 46-65 `Frames.assignAxle`; 47-65 `Frames.Memory.set`; 47-65 `Frames.Memory.put`; 51 `Frames.assignFrame`; 115-140 `Routing.Axle.setTyres`; 143-147 `Routing.Axle.fillXml`; 151-162 `Routing.Axle.isReady` |
| `src/core/chassis/axle_car_3dof.h` | 33-54 `F1.chassisStart`; 59-65 `F1.cBoost`; 72-93 `F1.rearStart`; 98-105 `F1.cSteering`; 255-256 `Routing.Axle.isReady`; 256 `Routing.allUsed`; 270-348 `Powertrain.Axle3`; 310-348 `Routing.Entry`; 310-348 `Routing.Axle`; 330-348 `Routing.Table`; 330-348 `Routing.member`; 330-337 `Routing.axleNames`; 348 `Routing.freshTable`; 350-355 `VehicleNames.axleOutputs` |
| `src/core/chassis/axle_car_3dof.hpp` | 7-58 `Routing.freshAxle`; 31, 88, 132 `Routing.Axle.placeTyres`; 52-57 `Frames.Memory.setData`; 62-115 `Routing.readAxle`; 119-150 `Frames.updateFrames`; 120-174 `Routing.Axle.setParameter`; 132 `F1.axleUpdate`; 132 `Outputs.f1Tyre`; 178-195 `Routing.Axle.fillXml`; 218-274 `F1.AxleOut`; 218-274 `F1.axleUpdate`; 227-228 `Chassis.tyreLoad`; 234-238 `Powertrain.brakingTorque`; 234-257 `Powertrain.poweredTorques`; 237-238 `Powertrain.steeringTorques`; 264-273 `Chassis.axleForces`; 287-303 `F1.axleState`; 294 `F1.scaling`; 306-330 `F1.Writes`; 306-330 `F1.written`; 306-330 `F1.axleInputNames`; 319-329 `F1.controlNameWrites`; 333-361 `F1.Members`; 333-361 `F1.setState`; 374-382 `F1.axleInputLimits`; 384-396 `F1.DEG`; 384-396 `F1.controlLimitWrites` |
| `src/core/chassis/axle_car_6dof.h` | 36-48, 73-76 `Kart.iAxle`; 60-67 `Kart.cTorque`; 78-85 `Kart.cSteering`; 169-171 `Kart.statesToInputs`; 253-254 `Powertrain.tyreHeight`; 262-263 `Powertrain.tyreVelocity`; 360-375 `Kart.Vehicle`; 377-391 `VehicleNames.axleOutputs` |
| `src/core/chassis/axle_car_6dof.hpp` | 20, 59 `Kart.frontAxle`; 25, 64 `Kart.rearAxle`; 30, 70 `Powertrain.Axle6`; 99-106 `Frames.updateFrames`; 99-181 `Kart.axleUpdate`; 99-181 `Outputs.kartAxle`; 99-161 `PoweredAxle.tyres`; 109-181 `Kart.AxleOut`; 125 `Powertrain.displSym`; 126, 130 `Powertrain.displRates`; 129-134 `Powertrain.displAsym`; 137 `Powertrain.symK`; 138 `Powertrain.asymK`; 140-151 `Powertrain.tyreDeformation`; 147-151, 156-157 `Powertrain.tyreVelocity`; 153-157 `Powertrain.chassisDeformation`; 164-168 `Kart.axleAcceleration`; 164-168 `PoweredAxle.derivative`; 186-206 `Powertrain.kartTorque`; 220-225 `Kart.wheelUpdate`; 246-258 `Kart.allStates`; 263-282 `Kart.inputNames`; 273-281 `Kart.controlNames`; 285-305 `Kart.Members`; 285-305 `Kart.setState`; 316-326 `Kart.inputLimits`; 323-333 `Kart.controlLimits` |
| `src/core/actuators/brake.h` | 31-39 `Routing.setOrThrow`; 48 `Powertrain.brakeTorque`; 54 `Routing.Entry`; 54 `Routing.brakeNames` |
| `src/core/chassis/chassis.h` | 32-53 `F1.chassisStart`; 32-53 `Kart.iChassis`; 181-187 `Chassis.AeroForces`; 234-235 `Routing.Car.isReady`; 242-252 `Outputs.State`; 242-252 `Outputs.values`; 242-252 `VehicleNames.outputNames`; 248-249 `Outputs.insertValues`; 248-249 `VehicleNames.insertAll`; 255-270 `Chassis.Params`; 255-270 `Kart.Vehicle`; 255-270 `Routing.Entry`; 255-270 `Routing.Car`; 255-270 `Routing.chassisBaseNames`; 266-269 `Chassis.Aero`; 272-279 `Routing.extraNames`; 282-309 `Outputs.ChassisState`; 282-309 `Outputs.chassisValues`; 282-308 `VehicleNames.chassisOutputs`; 318-321 `Frames.Frame`; 318-321 `Frames.Memory`; 318-321, 350-358 `Frames.Chassis`; 318-321 `Frames.Role`; 318-321 `Frames.Chassis.address`; 318-358 `Frames.freeChassis`; 318-358 `Frames.State` |
| `src/core/chassis/chassis.hpp` | 7-23 `Frames.newChassis`; 7-133 `Frames.step`; 7-133 `Frames.run`; 7-23 `Frames.empty`; 10 `Chassis.Attitude`; 10-11, 119-165 `Chassis.rotZ`; 10-11, 119-165 `Chassis.rotY`; 10-11, 119-165 `Chassis.rotX`; 10-11 `F1.wheelUpdate`; 10, 124-130 `Outputs.absolute`; 26-115 `Frames.Op`; 26-115 `Frames.vehicle`; 35-70 `Frames.copyChassis`; 73-115 `Frames.assignChassis`; 118-133 `Frames.updateFrames`; 124-131 `Frames.Memory.setData`; 137-173 `Routing.Car.setBase`; 148-155 `Routing.setExtra`; 176-185 `Routing.Document`; 177-185 `Routing.Car.fillXml`; 191-209 `Kart.statesToInputs`; 228-234 `Chassis.longitudinalAcceleration`; 238-244 `Chassis.lateralAcceleration`; 248-260 `Chassis.gravity`; 264-288 `Chassis.aeroForces`; 271 `Chassis.toBody`; 271 `Outputs.absolute`; 292-337 `Chassis.understeer`; 292-337 `Outputs.f1State`; 339-355 `F1.Members`; 339-355 `F1.setState`; 339-355 `Kart.Members`; 339-355 `Kart.setState`; 357-373 `F1.chassisInputNames`; 357-373 `Kart.inputNames`; 377-396 `F1.allStates`; 379-396 `Chassis.state`; 379-396 `Kart.allStates`; 398-425 `F1.chassisInputLimits`; 398-425 `Kart.inputLimits` |
| `src/core/chassis/chassis_car_3dof.h` | 53-66 `F1.loadStart`; 69-72 `F1.cThrottle`; 69-72 `F1.cBrakeBias`; 151-154 `Routing.Car.placeAxles`; 223-224 `Routing.Car.isReady`; 241-249 `Chassis.Params`; 282-298 `Routing.Car`; 282-298 `Routing.chassisOwnNames`; 300-305 `VehicleNames.outputNames` |
| `src/core/chassis/chassis_car_3dof.hpp` | 5-23 `Routing.freshCar`; 6-13, 48-56 `VehicleNames.axleOutputs`; 16-22 `F1.wheelUpdate`; 21-22, 40-41, 82-83 `Routing.Car.placeAxles`; 25-57 `Frames.createVehicle`; 26-57 `Routing.readCar`; 28-56 `Routing.readPaths`; 32 `Routing.Document.lookup`; 32 `Routing.readTable`; 45-57 `Frames.Memory.free`; 45-57 `Frames.freeAxle`; 48-56 `F1.chassisInputNames`; 48-55 `F1.AxleP`; 48-56 `F1.Car`; 70-115 `Routing.Path`; 70-115 `Routing.run`; 71-95 `Routing.Car.setParameter`; 77 `Routing.setIn`; 77 `Routing.chassisPath`; 98-105 `Routing.Car.fillXml`; 99-106 `Routing.Document`; 105 `Routing.writeTable`; 117-128 `Chassis.Input`; 117-204 `Chassis.Output`; 117-204 `Chassis.update`; 117-204 `F1.CarOut`; 117-204 `F1.carUpdate`; 131-134 `Chassis.negLoad`; 137-138 `Powertrain.axleBiases`; 141-142 `Chassis.aeroForce`; 155-161 `Chassis.totalTorque`; 183 `Chassis.Params.h`; 220-239 `F1.allStates`; 222-239 `Chassis.state`; 242-268 `F1.chassis3InputNames`; 263-267 `F1.controlNameWrites`; 270-301 `F1.Members`; 270-301 `F1.setState`; 304-338 `F1.KMH`; 304-338 `F1.chassis3InputLimits`; 343-351 `F1.controlLimitWrites` |
| `src/core/chassis/chassis_car_6dof.h` | 51-77 `Kart.iBody`; 143 `Kart.comPosition`; 152-156 `Kart.axlePosition`; 159 `Kart.getAcceleration`; 167-169 `Kart.axleVelocity`; 233-235 `Kart.Vehicle`; 258-263 `VehicleNames.outputNames` |
| `src/core/chassis/chassis_car_6dof.hpp` | 8-15, 58-66 `VehicleNames.axleOutputs`; 31-70 `Frames.createVehicle`; 58-65 `Kart.AxleK`; 89-155 `Outputs.kartState`; 106 `Kart.comPosition`; 125-127, 135 `Kart.totalForce`; 129-130, 136 `Kart.totalTorque`; 133-134 `Kart.aeroForce`; 139-146 `Kart.dvdt`; 149-153 `Kart.angularAcceleration`; 158-165 `Kart.newtonLhs`; 169-189 `Kart.eulerLhs`; 193-200 `Kart.eulerM`; 219-250 `Kart.allStates`; 255-280 `Kart.inputNames`; 283-313 `Kart.setState`; 285-315 `Kart.Members`; 317-368 `Kart.inputLimits` |
| `src/core/vehicles/circuit_geometry.h` | 6-36 `CircuitFile.Circuit` |
| `src/core/applications/circuit_preprocessor.h` | 16-17 `Preprocessor.direction`; 19-24 `Preprocessor.Coord`; 27-53 `CircuitFile.Options`; 29-52 `CircuitFile.Options.default`; 29-46 `CircuitFit.Settings`; 32-38 `Preprocessor.Weights`; 40-42 `Preprocessor.Limits`; 76-102 `CircuitFit.Request`; 76-212 `CircuitFit.preprocess`; 76-77, 132-133 `Preprocessor.evaluate`; 85, 113, 157, 191 `CircuitFit.Request.closed`; 119-127 `CircuitFit.Request.meshing`; 192 `CircuitFit.startGuess`; 195 `CircuitFit.Request.coordinates`; 212-226 `Track.Circuit`; 215-227 `CircuitFile.Circuit`; 239-263 `Preprocessor.Kind`; 243, 256 `Preprocessor.nStates`; 243 `Preprocessor.FlatState`; 243 `Preprocessor.FlatState.val`; 243, 256 `Preprocessor.iYaw`; 243, 256 `Preprocessor.iNl`; 243, 256 `Preprocessor.iNr`; 248, 261 `Preprocessor.nControls`; 248, 261 `Preprocessor.cDyawDot`; 248, 261 `Preprocessor.cDnl`; 248, 261 `Preprocessor.cDnr`; 256 `Preprocessor.ElevState`; 256 `Preprocessor.ElevState.val`; 261 `Preprocessor.cDpitchDot`; 261 `Preprocessor.cDrollDot`; 270-289 `CircuitFit.problemOf`; 282 `Preprocessor.nVariables`; 283 `Preprocessor.nConstraints`; 291-313 `Preprocessor.equations`; 315-337 `Preprocessor.coordinates`; 347-360 `Preprocessor.Problem`; 370-377 `Centreline.Centerline` |
| `src/core/applications/circuit_preprocessor.hpp` | 12-61 `Preprocessor.readKml`; 17-29 `Preprocessor.Kml`; 17-22 `Preprocessor.Kml.numbers`; 37-58 `Preprocessor.triples`; 64-258 `CircuitFile.read`; 71-76 `CircuitFile.readType`; 78-97 `CircuitFile.readDimensions`; 100-240 `CircuitFile.child`; 102-129 `CircuitFile.number`; 109-122 `CircuitFile.readOptions`; 137-240 `CircuitFile.vector`; 139-149, 151-160, 162-171 `CircuitFile.readBoundary`; 147-149 `CircuitFile.points`; 173-186, 188-201 `CircuitFile.readMeasured`; 206-210, 215-219, 230-234 `CircuitFile.readIf`; 242-244 `CircuitFile.readDirection`; 246-257 `CircuitFile.readKerbs`; 260-279 `Preprocessor.transformCoordinates`; 274, 278 `Preprocessor.toCartesian`; 282-728 `CircuitFit.compute`; 290-465 `CircuitFit.startGuess`; 290-619 `CircuitFit.Setup`; 290-619 `CircuitFit.setup`; 291-307 `Preprocessor.Point`; 319-364 `CircuitFit.angles`; 325-330 `CircuitFit.steps`; 325-339 `Preprocessor.normV`; 325-339 `Preprocessor.guessFrame`; 328-339 `Preprocessor.normalizeV`; 336-339 `Preprocessor.crossV`; 344, 368, 1108 `Centreline.Library`; 344 `Centreline.distance`; 356-357 `Preprocessor.chords`; 356-363 `Preprocessor.rawHeadings`; 357, 360 `Preprocessor.atan2`; 366-368 `Preprocessor.unwrap`; 367-368 `Preprocessor.unwrapFrom`; 368 `Centreline.distance`; 371-372 `Preprocessor.direction`; 375-404 `CircuitFit.slopes`; 388 `Preprocessor.closingTurn`; 406-429 `CircuitFit.widths`; 467-474 `Preprocessor.elementDs`; 470-471 `Preprocessor.differences`; 477 `CircuitFit.problemOf`; 480-599 `Preprocessor.fill`; 480, 486, 491-525 `Preprocessor.pack`; 481, 487, 526-559 `Preprocessor.packLower`; 482, 488, 561-593 `Preprocessor.packUpper`; 491-525 `Preprocessor.writes`; 526-559 `Preprocessor.lowerWrites`; 561-593 `Preprocessor.upperWrites`; 616, 621, 644-651 `CircuitFit.Outcome`; 619 `CircuitFit.Nlp`; 619 `CircuitFit.Optimiser`; 621-728 `CircuitFit.finish`; 625-728 `CircuitFit.Fitted`; 625, 643-646 `Preprocessor.arclengths`; 625-641 `Track.Circuit`; 643-644 `Preprocessor.arclengthLoop`; 648-678 `Preprocessor.unpack`; 650-654 `Preprocessor.copyN`; 650-654 `Preprocessor.asArray`; 650-654 `Preprocessor.unpackArrays`; 657 `Preprocessor.leftBoundary`; 658 `Preprocessor.rightBoundary`; 659 `Preprocessor.centre`; 661-677 `Preprocessor.store`; 680-728 `CircuitFit.boundaryErrors`; 680-728 `Preprocessor.errors`; 691-714 `Preprocessor.errorLoop`; 762-1086 `CircuitFile.write`; 772-779, 839 `CircuitFile.Doc`; 781-1073 `CircuitFile.Elem`; 781-835 `CircuitFile.writeScalars`; 841-1073 `CircuitFile.vectors`; 842-844 `CircuitFile.vectors`; 842-847 `CircuitFile.writeVector`; 1088-1406 `Centreline.andThen`; 1088-1406 `Centreline.averaged`; 1090, 1164, 1283 `Centreline.Meshing`; 1094-1118 `Centreline.sampled`; 1095-1096, 1123-1127 `Centreline.closeLine`; 1099-1102, 1133-1136 `Mesh.arclengthsFrom`; 1102 `Centreline.distance`; 1104, 1109-1112, 1138-1148 `Centreline.along`; 1104, 1135 `Centreline.lengthOf`; 1104, 1138 `Mesh.linspace`; 1105-1106, 1151-1152, 1209-1213 `Centreline.dropClosing`; 1108, 1112 `Centreline.distance`; 1115-1118 `Centreline.follow`; 1117-1118 `Centreline.distance`; 1120-1154 `Centreline.recentred`; 1121, 1226, 1356 `Centreline.middle`; 1122, 1227, 1357 `Centreline.half`; 1154, 1276 `Centreline.Centerline`; 1178-1207 `Mesh.mesh`; 1179-1180, 1195 `Mesh.place`; 1179 `Mesh.Start`; 1179, 1310 `Mesh.Start.nodes`; 1179, 1310 `Mesh.Start.back`; 1183-1198 `Mesh.grow`; 1188-1192 `Mesh.limit`; 1200-1207 `Mesh.squash`; 1316 `Mesh.distributionRequest`; 1410-1472 `Mesh.trim`; 1419-1425 `Mesh.Flat`; 1429-1433, 1590-1593 `Mesh.Closest`; 1438-1443 `Mesh.dot2`; 1438-1443 `Mesh.outside`; 1452-1459 `Mesh.trimSide`; 1475-1583 `CircuitFit.value`; 1479, 1518, 1547, 1566, 1572, 1579 `Preprocessor.fgVector`; 1481-1500 `Preprocessor.load`; 1488-1497 `Preprocessor.loadPoints`; 1491-1496 `Preprocessor.readN`; 1502-1583 `Preprocessor.evaluate`; 1505-1515, 1522-1528 `CircuitFit.nodesOf`; 1505-1515, 1521-1528 `Preprocessor.Node`; 1517-1548 `Preprocessor.inner`; 1532-1537 `Preprocessor.commonCost`; 1539-1543 `Preprocessor.elevationCost`; 1546-1547 `Preprocessor.rows`; 1563-1566 `Preprocessor.closingRows`; 1570-1572, 1577-1579 `Preprocessor.offLine`; 1586-1611 `Mesh.sizeAt`; 1596-1608 `Mesh.sizeLoop`; 1613-1628 `Mesh.whoIsAhead` |
| `src/core/vehicles/dynamic_model.h` | 13-25 `Routing.Vehicle.addParameter`; 14-15 `Parameter.Decl`; 14-25 `Parameter.addParameter`; 14-25 `Parameter.addStep`; 14-25 `Parameter.declareAll`; 15 `Parameter.Decl.path`; 24 `Parameter.Decl.build`; 35 `Routing.Vehicle` |
| `src/core/vehicles/dynamic_model_car.h` | 16-30 `Frames.Op`; 33-34 `F1.nInputs`; 33-34 `Kart.nInputs`; 35 `F1.nControls`; 35 `Kart.nControls`; 49-59 `Routing.readCar`; 86-90 `F1.Equations`; 86-90 `Transcription.Eqs`; 149 `Kart.changeTrack`; 152-160 `Routing.Car.fillXml`; 162 `Outputs.values`; 162 `VehicleNames.outputNames`; 170-188 `F1.classifyBase`; 170-188 `LapVehicles.kartVehicle`; 177 `F1.countFrom`; 178 `F1.countAfter` |
| `src/core/vehicles/dynamic_model_car.hpp` | 8-20 `Kart.statesToInputs`; 35-48 `Routing.Vehicle.setParameter`; 43-46 `Routing.fillFirst`; 51-108 `F1.equationsCurvilinear`; 51-108 `F1.equationsCartesian`; 51-108 `Kart.evaluate`; 51-108 `LapVehicles.f1Eval`; 51-108 `LapVehicles.kartEval`; 51-108 `Outputs.f1Track`; 51-108 `Outputs.kartTrack`; 51-108 `Propagation.Motion`; 51-62 `Routing.Outcome`; 51-62 `Routing.Vehicle.evaluate`; 61-62 `Outputs.Library`; 61-63 `Routing.applyParams`; 71-97 `F1.RoadOut`; 71-97 `Kart.RoadOut`; 74, 97 `Outputs.f1State`; 82-97 `Chassis.omegaBody`; 82-88 `F1.roadCurvilinear`; 89-95 `F1.roadCartesian`; 97-107 `F1.evaluate`; 111-202 `F1.equationsWithDerivatives`; 166-175 `F1.tableEntry`; 206-216 `F1.inputNames`; 206-216 `F1.controlNames`; 206-216 `Kart.inputNames`; 219-243 `F1.Limits`; 219-243 `F1.inputLimits`; 219-243 `F1.controlLimits`; 219-243 `LapVehicles.f1Vehicle` |
| `src/core/vehicles/dynamic_model_powered_axle.h` | 8-62 `Frames.copyPoweredAxle`; 8-62 `Frames.freePoweredAxle`; 17-20 `PoweredAxle.State`; 45-49 `Frames.PoweredAxle`; 47-58 `PoweredAxle.Model` |
| `src/core/vehicles/dynamic_model_powered_axle.hpp` | 5-26 `Frames.newPoweredAxle`; 16-18 `PoweredAxle.Model`; 20-23 `PoweredAxle.height`; 29-58 `PoweredAxle.derivative`; 43 `PoweredAxle.tyres` |
| `src/core/actuators/engine.h` | 27-35 `Routing.setOrThrow`; 51 `Powertrain.enginePower`; 54-67 `Powertrain.Engine`; 67 `Routing.engineNames` |
| `src/core/actuators/engine.hpp` | 27-58 `Powertrain.Dual`; 27-58 `Powertrain.Dual.mul`; 27-58 `Powertrain.Dual.div`; 27-58 `Powertrain.Dual.const`; 35-59 `Powertrain.engineTorque`; 35-59 `Powertrain.engineTorqueAD`; 42 `LapVehicles.f1Eval`; 42 `Powertrain.enginePower`; 47-57 `Powertrain.curvePower` |
| `src/main/python/fastest_lap.py` | 11 `Python.ofC`; 26-33 `PythonPrint.printVariable`; 29 `PythonPrint.printBuffer`; 61-338 `Python.Py.bind`; 61-70 `Python.createVector`; 62, 107 `Python.cstr`; 69, 133 `Python.cInt`; 72-75 `Python.createScalar`; 100-107 `Python.variableType`; 105 `Python.asName`; 109-121 `Python.downloadVariables`; 111-119 `Python.downloadLoop`; 112-119 `Python.downloadItem`; 113, 116 `Python.Item`; 123-125 `Python.downloadScalar`; 125 `Python.asNum`; 127-129 `Python.downloadVectorSize`; 129 `Python.asSize`; 131-141 `Python.downloadVector`; 136 `Python.asArr`; 143-152 `Python.typeSizes`; 155-194 `Python.typeNames`; 196-209 `PythonOutput.vehicleGetOutput`; 222-236 `Python.trackData`; 269-287 `Python.ggDiagram`; 289-327 `Python.optimalLaptime`; 305-327 `Python.requested`; 327 `Trim.pySpace`; 327 `Trim.strip`; 327 `Trim.onText`; 329-338 `Python.trackCoordinates` |
| `src/main/c/fastestlapc.cpp` | 14-28 `Python.Py`; 14-28, 1078, 1110 `SteadyCommand.After`; 22-41 `Outputs.Library`; 31-35 `Registry.Table`; 31-35 `Registry.Reg`; 31-35 `Registry.Reg.empty`; 31-35 `Registry.put`; 31-35 `Registry.overwrite`; 31-35 `Registry.drop`; 46-48 `Trim.ltrim`; 47-51 `Pattern.isSpace`; 47, 51 `Trim.tries`; 47 `Trim.atBegin`; 47, 51 `Trim.eraseAll`; 50-52 `Trim.rtrim`; 51 `Trim.atEnd`; 54-56 `Trim.trim`; 74-90 `Registry.taken`; 95-160 `Propagation.Mounted.new`; 95-260 `Propagation.Call`; 95-430, 907-985, 1028-1125, 1480-1990 `Propagation.Call.op`; 103-1000, 1717-1990 `Registry.Ret`; 103-143 `Registry.VehicleFile`; 103-1000, 1717-1990 `Registry.Op`; 103-1000, 1717-1990 `Registry.done`; 103-1000, 1717-1990 `Registry.step`; 103-1000, 1717-1990 `Registry.run`; 176-204 `Registry.TrackFile`; 326-354 `PythonPrint.printToStd`; 331-347 `PythonPrint.Printer`; 370-387 `PythonPrint.printVariable`; 375-380 `Pattern.printToString`; 377, 728, 733 `Pattern.toSize`; 382, 640, 730, 735 `Pattern.strcpy`; 390-411 `Outputs.getProperty`; 397-398 `Outputs.copyArray`; 405-410 `Outputs.find`; 414-432 `Outputs.getOutput`; 421, 425 `Propagation.output`; 458-474, 477-570 `Python.trackData`; 490-570 `TrackDownload.trackDownload`; 491-511 `TrackDownload.TrackData`; 524-525 `TrackDownload.readLoop`; 609 `Python.cInt`; 641 `Pattern.variableTypeCopy`; 696-720 `VehicleNames.typeSizes`; 702-717, 761-770 `VehicleNames.typeNamed`; 723-773 `VehicleNames.typeNames`; 726, 744 `VehicleNames.Names`; 726, 744 `VehicleNames.namesOf`; 728-730 `Pattern.copyName`; 776-807 `Outputs.getOutputNames`; 800-804 `Outputs.copyAll`; 803 `Outputs.copyUnchecked`; 844-852 `Pattern.selects`; 845-852 `Pattern.Name`; 845 `Pattern.replaceStars`; 845-846 `Pattern.Atom`; 846 `Pattern.isOtherMeta`; 846 `Pattern.parse`; 846-852 `Pattern.dot`; 850-857 `Registry.dropIf`; 852 `Pattern.fullMatch`; 907-985 `Propagation.Mounted.edit`; 960 `Pattern.upToSemicolon`; 960-964 `Pattern.search`; 963-970 `Pattern.unwrap`; 969 `Pattern.splitSpaces`; 970 `Pattern.squeeze`; 992-1022 `Propagation.computePropagation`; 995-1018 `Propagation.newInputs`; 999-1001 `Propagation.readArray`; 1003-1015 `Propagation.readOptions`; 1004, 1011-1014 `Propagation.StepOptions`; 1004-1018 `Propagation.Lion`; 1011-1014 `Propagation.setIf`; 1018 `Propagation.Motion`; 1028 `Propagation.Arrays`; 1028 `Propagation.Step`; 1028-1061 `Propagation.propagate`; 1033-1057 `Propagation.moved`; 1034-1057 `Propagation.Movers`; 1034-1057 `Propagation.vehicles`; 1035-1044, 1048-1057 `Propagation.Step.call`; 1037-1038, 1050-1051, 1499-1500, 1747-1748, 1752-1753 `Propagation.Mounted.change`; 1039 `Propagation.kartOnTrack`; 1043 `Propagation.kartOnPlane`; 1052 `Propagation.f1OnTrack`; 1056 `Propagation.f1OnPlane`; 1064-1075 `SteadyCommand.computeSteady`; 1065-1067, 1085, 1089 `SteadyCommand.Entry`; 1070-1074 `SteadyCommand.deliver`; 1073-1074 `SteadyCommand.copyTo`; 1078-1093 `SteadyCommand.steadyState`; 1083-1089, 1115-1121 `SteadyCommand.vehicleNamed`; 1085 `SteadyCommand.kartEntry`; 1089 `SteadyCommand.f1Entry`; 1096-1108 `SteadyCommand.computeDiagram`; 1102-1107 `SteadyCommand.writePoints`; 1110-1125 `SteadyCommand.ggDiagram`; 1179-1375 `LapOptions.Node`; 1179-1376 `LapOptions.configure`; 1181-1187 `LapOptions.Given`; 1190 `LapOptions.text`; 1190 `LapOptions.descend`; 1190 `LapOptions.find?`; 1190-1287 `LapOptions.Texts`; 1190, 1193, 1196, 1203, 1237, 1252, 1254 `LapOptions.option`; 1199-1200 `LapOptions.fileOption`; 1200 `LapOptions.orThrow`; 1206-1233 `LapOptions.outputOption`; 1208 `Trim.onText`; 1214 `LapOptions.children`; 1215 `LapOptions.name`; 1219-1231 `LapOptions.allVariables`; 1235 `LapOptions.speedOption`; 1240-1250 `LapOptions.initialOption`; 1245 `LapOptions.attrs`; 1245, 1269 `LapOptions.attr`; 1245-1246 `LapOptions.fromTable`; 1248-1249 `LapOptions.copyInto`; 1257-1295 `LapOptions.controlsOption`; 1259-1293 `LapOptions.controlOption`; 1259, 1300, 1311 `LapOptions.loop`; 1262, 1340, 1357 `LapOptions.position`; 1282-1287 `LapOptions.child?`; 1298-1306 `LapOptions.integralsOption`; 1302-1304 `LapOptions.integralOption`; 1309-1376 `LapOptions.boundsOption`; 1311-1375 `LapOptions.variableOption`; 1314-1337 `LapOptions.wellFormedBound`; 1344-1352, 1361-1369 `LapOptions.boundOption`; 1379-1442 `LapOptions.CarType`; 1379-1407 `LapOptions.Config`; 1379-1407 `LapOptions.defaults`; 1412-1440 `LapOptions.f1Type`; 1412-1440 `LapOptions.kartType`; 1445-1488 `LapOptions.controlVariables`; 1453-1486 `LapOptions.controlVariable`; 1492-1714 `Registry.LapJob`; 1509-1512 `LapOptions.startingControls`; 1521-1536 `LapOptions.lapSettings`; 1539-1568 `LapOptions.lapRequest`; 1550-1556 `LapOptions.startControls`; 1552-1555 `LapOptions.startControl`; 1560-1568 `LapSolve.restart`; 1560-1715 `Registry.putScalars`; 1560-1715 `Registry.putVectors`; 1563-1567 `LapOptions.Warm`; 1578-1713 `Registry.saveLap`; 1588-1598 `Registry.lapNamesTaken`; 1595, 1618, 1703 `Registry.derivativeName`; 1600-1605 `Registry.integralVars`; 1600-1605 `Registry.vectorVars`; 1602 `Registry.integralPrefix`; 1609-1620 `Registry.laptimeScalars`; 1623-1643 `Registry.integralScalars`; 1643-1685 `LapOptions.lapData`; 1646-1679 `LapOptions.pointData`; 1646-1679 `LapOptions.lapRows`; 1646-1684 `Registry.vectorPairs`; 1649-1651 `LapOutputs.f1Outputs`; 1649-1651 `LapOutputs.kartOutputs`; 1657-1677 `LapOptions.valueAt`; 1677 `LapOutputs.lookUp`; 1687-1706 `Registry.vectorDerivatives`; 1689-1706 `LapOptions.lapSensitivity`; 1804, 1838-1863 `CircuitOptions.Mesh`; 1806-1899 `CircuitOptions.configure`; 1814-1820 `CircuitOptions.need`; 1822-1863 `CircuitOptions.readMesh`; 1843 `CircuitOptions.toSize`; 1866-1876 `CircuitOptions.readWeights`; 1866-1878 `CircuitOptions.readOptions`; 1867-1876 `CircuitOptions.number`; 1887-1892 `CircuitOptions.readPrefix`; 1900-1927 `CircuitOptions.Config`; 1931-2131 `CircuitOptions.job`; 1931-2131 `Registry.CircuitJob`; 1931-2131 `Registry.runCircuit`; 1939-1982 `CircuitOptions.circuit`; 1994-1997 `CircuitOptions.written`; 1999-2127 `CircuitOptions.outputTable`; 1999-2127 `CircuitOptions.outputData`; 1999-2127 `Registry.circuitOutputs`; 1999-2127 `Registry.saveOutputs`; 2010-2012 `CircuitOptions.copied` |
| `src/core/vehicles/kerb.h` | 14 `Kerb.outside`; 23-29 `Kerb.Kerb`; 34-37 `Kerb.compute`; 42-58 `Kerb.appendKerb`; 46-54 `Kerb.appendAll`; 77-84 `Kerb.Sample`; 77-141 `Kerb.compute`; 79-80 `Kerb.computeLoop`; 85-140 `Kerb.computeLoop`; 97-128 `Kerb.closeKerb`; 112 `Kerb.trapz`; 143-157 `Kerb.evaluate`; 148 `Kerb.onKerb`; 159-172 `CircuitFile.readKerb`; 164-166 `CircuitFile.need`; 175-188 `CircuitFile.writeKerb`; 180-184 `CircuitFile.KerbElem` |
| `src/core/vehicles/limebeer2014f1.h` | 25-27 `Routing.freshCar`; 46-178 `LapVehicles.f1Steady`; 47-118 `SteadyState.Car`; 53-54 `F1.maxYaw`; 54 `F1.maxSteering`; 57-60 `LapVehicles.f1Guess`; 62-71 `LapVehicles.f1Bounds`; 73-77 `LapVehicles.f1BoundsBrake`; 79-83 `F1.steadyBounds`; 85-101 `F1.getX`; 103-178 `F1.steadyEquations`; 113-141 `F1.steadyInputs`; 143-149 `F1.steadyControls`; 180-310 `LapVehicles.f1Vehicle`; 185-225 `F1.classify`; 191 `LapVehicles.Circuit`; 200-203 `F1.eraseAll`; 227-230 `F1.rateBounds`; 227-230 `Transcription.Quantity`; 232-264 `F1.extraBounds`; 266-281 `F1.extraConstraints`; 266-310 `LapVehicles.f1Eval`; 266-310 `Transcription.Eqs`; 289 `F1.integralNames`; 293-310 `F1.integrals`; 318-370 `Routing.Call`; 330-380 `Propagation.Mounted`; 334-339 `Routing.freshFour`; 350-368 `Routing.eachCopy`; 350-375 `Routing.callOn` |
| `src/core/vehicles/lot2016kart.h` | 44-54 `Kart.construct`; 57-69 `Kart.Called`; 57-69 `Kart.changeTrack`; 73-182 `LapVehicles.kartSteady`; 83-86 `Kart.steadyGuess`; 88-92 `Kart.steadyVariableBounds`; 104-116 `Kart.getX`; 118-122 `Kart.steadyBounds`; 127-182 `Kart.steadyEquations`; 134-151 `Kart.steadyInputs`; 153-156 `Kart.steadyControls`; 184-211 `LapVehicles.kartVehicle`; 186-192 `Kart.rateBounds`; 194-198 `Kart.extraBounds`; 200-211 `Kart.extraConstraints`; 200-211 `LapVehicles.kartEval`; 235-271 `Propagation.Mounted` |
| `src/core/applications/minimum_curvature_path.h` | 23 `PathSolve.computeArcs`; 25-34 `PathSolve.compute`; 65-68 `Path.Name`; 67 `Path.Name.val`; 67 `Path.nameEnd`; 67 `Path.Vars`; 74 `Path.nVariables`; 74 `Path.nConstraints`; 101-115 `Path.Node`; 119-139 `PathSolve.Result` |
| `src/core/applications/minimum_curvature_path.hpp` | 10-19 `PathSolve.arcsNlp`; 16 `Path.arcsBounds`; 43-46, 203 `PathSolve.Nlp`; 44 `PathSolve.Solver`; 48-49, 206-207, 216 `PathSolve.Answer`; 56-185 `PathSolve.nlp`; 58-86, 126-182 `Path.problem`; 60 `Path.nElements`; 62-86 `Path.checkStations`; 90-118 `PathSolve.Circuit`; 116-118 `Path.normalVector`; 126-128 `Path.Range`; 131-182 `Path.entries`; 131-182 `Path.writeAll`; 133-139, 142-143 `Path.Station`; 141-167 `Path.pointEntries`; 141-181 `Path.writeAt`; 172-174, 179-181 `Path.stepEntry`; 215, 415-416, 423-440 `Path.fgVector`; 215-216 `PathSolve.copyOver`; 219-250 `PathSolve.exported`; 253-335 `PathSolve.xml`; 264-268 `PathSolve.commas`; 264-332 `PathSolve.children`; 338-375 `Path.arcsFitness`; 352-364 `Path.lateralDerivatives`; 366-372 `Path.arcsSum`; 378-443 `PathSolve.fitness`; 385-400 `Path.load`; 388-394 `Path.loadPoint`; 402-412 `PathSolve.nodesAt`; 405-407 `Path.place`; 409-411 `Path.curvature`; 414-441 `Path.evaluate`; 417-429 `Path.inner`; 420-421 `Path.curvature2`; 420-421 `Path.elementCost`; 423-428 `Path.rows`; 434 `Path.closingCost`; 435-440 `Path.closingRows` |
| `src/core/foundation/model_parameter.h` | 9-11 `Parameter.mkConstant`; 14-45 `Parameter.mkVarying`; 29 `Search.isSorted`; 33-41 `Parameter.markUsed`; 51-77 `Parameter.eval`; 55, 65 `Parameter.front`; 60 `Search.upperBoundLoop`; 60 `Search.upperBound`; 68 `Parameter.back`; 90-93 `Parameter.Param`; 101 `Parameter.numberOfParameters`; 103-117 `Parameter.getAll`; 107-112, 123-128 `Parameter.gatherLoop`; 119-133 `Parameter.getAliases`; 126, 143 `Parameter.copyInto`; 136-148 `Parameter.setAll`; 140-145 `Parameter.setLoop` |
| `src/core/applications/optimal_laptime.h` | 33-58 `Transcription.Options`; 45 `LapSolve.solveLap`; 62-65 `Control.createDontOptimize`; 67-70 `Control.createConstant`; 72-75 `Control.createHypermesh`; 77-80 `Control.createFullMesh`; 82-85 `Control.createFullMeshD`; 120-150 `LapSolve.Lap`; 130-160 `Transcription.Name`; 133-140 `LapVehicles.kartEval`; 133-140 `Transcription.Quantity`; 147 `Transcription.nRestricted`; 149-159 `Cost.restrictedValues`; 204-205 `Transcription.initialLoaded`; 230-240 `Cost.Node`; 230-240 `Transcription.Row`; 233-236 `Transcription.Loaded`; 266-268 `Transcription.nVariables`; 269-270 `Transcription.nConstraints`; 274-290, 243 `Cost.Evaluation`; 281-287, 329-335 `Cost.withIntegrals`; 281-287 `Cost.fgDirect`; 281-287, 329-335 `LapSolve.fgOf`; 329-335 `Cost.fgDerivative`; 340-346 `LapSolve.Exported` |
| `src/core/applications/optimal_laptime.hpp` | 8-55, 242-272, 300-523, 750-1008 `LapSolve.setUp`; 8-55 `LapSolve.solveLap`; 8-11 `Transcription.Request`; 8-27, 30-55, 242-254 `Transcription.prepare`; 59-162 `Transcription.checkInputs`; 108-127 `Transcription.checkControls`; 141-161 `Transcription.setQuantities`; 144-146 `Transcription.findName`; 172-235 `LapSolve.exportSolution`; 199-228 `LapSolve.exportControl`; 199-228 `LapSolve.exportControls`; 204-222 `LapSolve.copyInto`; 257-272 `LapSolve.initialOf`; 257-272 `LapSolve.packOf`; 300-553, 750-1038 `LapSolve.nlpOf`; 300-480 `Transcription.Vehicle`; 300-405 `Transcription.packDirect`; 318-323, 771-776 `LapSolve.initialOf`; 318-323 `Transcription.Initial`; 318-323 `Transcription.initialDirect`; 325-404, 778-867 `LapSolve.packOf`; 325-404, 485-491 `Transcription.fillVariables`; 330-404 `Transcription.emitDirect`; 331, 784, 1267, 1469 `Transcription.offset`; 333-400 `Transcription.Entry`; 333-400, 786-865 `Transcription.storeAll`; 333-375 `Transcription.packNodeDirect`; 333, 786 `Transcription.nodeIndices`; 335-342, 355-362 `Transcription.inputEntries`; 335-362 `Transcription.packInputs`; 345-348 `Transcription.Quantity`; 364-374 `Transcription.fullEntries`; 377-404 `Transcription.restEntriesDirect`; 406-498, 869-982 `Transcription.constraintBounds`; 410, 870, 1320, 1530 `LapVehicles.idsOf`; 412-483 `Transcription.emitBounds`; 417-440, 448-471 `Transcription.elementBounds`; 474-483, 958-967 `Transcription.quantityBounds`; 500-523, 985-1008 `Transcription.checkWarm`; 548-553, 1033-1038 `LapSolve.Nlp`; 548-553, 1033-1038 `LapSolve.Optimiser`; 548-553, 1033-1038 `LapSolve.visitAll`; 555-647, 1040-1137 `LapSolve.finish`; 556-557, 637-647, 1041-1042, 1127-1137 `LapSolve.Outcome`; 598-634, 1088-1124 `Cost.report`; 605-634 `Cost.lapReport`; 615-628 `Cost.nodeTimes`; 615-628, 1105-1118 `LapSolve.setTimes`; 649-735, 1139-1220 `Sensitivity.SensNode`; 660-670 `Sensitivity.exportSensitivityDirect`; 664-670, 1154-1160 `Sensitivity.killFirst`; 687-694, 1177-1184 `Sensitivity.d2timedsdp`; 696-727, 1186-1216 `Sensitivity.laptimeSensitivity`; 699-719, 1189-1209 `Sensitivity.timeSensitivities`; 750-868 `Transcription.packDerivative`; 771-776 `Transcription.initialDerivative`; 783-867 `Transcription.emitDerivative`; 786-840 `Transcription.packNodeDerivative`; 829-839 `Transcription.fullDerivativeEntries`; 842-867 `Transcription.restEntriesDerivative`; 904-913, 946-955 `Transcription.controlRowBounds`; 1150-1160 `Sensitivity.exportSensitivityDerivative`; 1244-1245, 1322, 1419 `Cost.fillFg`; 1247-1306, 1447-1516 `LapSolve.loadOf`; 1247-1306 `Transcription.loadDirect`; 1257-1262 `Transcription.loadFirstControls`; 1266-1285 `Transcription.loadNodesDirect`; 1271-1277, 1473-1479 `Transcription.loadInputs`; 1271-1277, 1473-1479 `Transcription.loadRow`; 1273-1298 `Transcription.setIdx`; 1273-1298 `Transcription.pop`; 1279-1284, 1481-1486 `Transcription.loadFull`; 1287-1303, 1496-1512 `Transcription.loadRest`; 1293-1294 `Transcription.loadValues`; 1308-1419 `Cost.evaluateDirect`; 1308-1419, 1518-1656 `LapSolve.evaluateOf`; 1310-1312, 1325-1327 `Cost.evalNodes`; 1310 `LapVehicles.arrayOf`; 1316, 1353, 1409 `Cost.integralValues`; 1317, 1352, 1527, 1588 `Cost.integrand`; 1323, 1533, 616, 1106 `Cost.overElements`; 1326-1328, 1536-1538 `Cost.dtds`; 1330-1333, 1540-1544 `Cost.timeTerm`; 1337-1347, 1560-1570 `Cost.elementRows`; 1349-1354, 1406-1410 `Cost.integralValue`; 1357-1375, 1545-1553 `Cost.sumFullMesh`; 1362-1366 `Cost.penaltyOfDirect`; 1375-1378, 1598-1602 `Cost.closingTimeTerm`; 1383-1394, 1618-1629 `Cost.closingRows`; 1401-1402 `Cost.closingPenaltyOfDirect`; 1447-1516 `Transcription.loadDerivative`; 1457-1465 `Transcription.loadFirstControlsD`; 1468-1494 `Transcription.loadNodesDerivative`; 1488-1493 `Transcription.loadFullDerivative`; 1518-1656 `Cost.evaluateDerivative`; 1547-1555 `Cost.penaltyOfDerivative`; 1572-1583 `Cost.controlRows`; 1605-1613 `Cost.closingPenaltyOfDerivative`; 1631-1641 `Cost.closingControlRows` |
| `src/core/applications/optimal_laptime_constants.h` | 11 `Control.Kind` |
| `src/core/applications/detail/optimal_laptime_control_variable.h` | 14-20 `Control.CV`; 69-83 `Control.hypermeshPosition`; 72 `Search.upperBoundLoop`; 72 `Search.upperBound`; 87-95 `Control.hypermeshValue`; 99-108 `Control.hypermeshValueAndDerivative`; 112-118 `Control.clearOne` |
| `src/core/applications/detail/optimal_laptime_control_variables.h` | 33-35 `Control.Stats`; 51-125 `Control.checkInputs`; 55-123 `Control.checkOne`; 129-158 `Control.computeStatistics`; 136-157 `Control.statsLoop`; 181-185 `Control.clearOne`; 181-185 `Control.clear`; 190-222 `Control.controlArrayAtS`; 190 `LapVehicles.arrayOf`; 201-218 `Control.controlAt`; 228-262 `Control.controlArrayAndDerivativeAtS`; 238-258 `Control.controlAndDerivativeAt`; 266-271 `Control.check` |
| `src/core/applications/detail/optimal_laptime_data.h` | 19-23 `LapFile.nVariables`; 19-23 `Transcription.nVariablesPerPoint`; 25-30 `LapFile.nConstraints`; 25-30 `Transcription.nConstraintsPerElement`; 32-63 `LapFile.Data`; 32-65 `LapSolve.Lap`; 32-65 `Transcription.Problem`; 66-155 `LapFile.read`; 72-77 `LapFile.readType`; 79-84 `LapFile.readDirect`; 88, 192 `LapFile.Names`; 91 `LapFile.readPoints`; 92 `LapFile.elementsOf`; 94-154 `LapFile.child`; 94 `LapFile.number`; 96-154 `LapFile.vector`; 99-105 `LapFile.byPoints`; 102-104 `LapFile.readInput`; 111-140 `LapFile.readControl`; 113-125 `LapFile.readKind`; 135 `LapFile.hasChild`; 158-339 `LapFile.write`; 167-336 `LapFile.Elem`; 171-181 `LapFile.Doc`; 185-188 `LapFile.vec`; 199-208 `LapFile.column`; 199-208 `LapFile.writeInputs`; 211-269 `LapFile.writeControls`; 214-248 `LapFile.kindElem`; 214-268 `LapFile.writeControl`; 218, 224, 235 `LapFile.valuesElem`; 272-291 `LapFile.coords`; 309-312 `LapFile.Doc` |
| `src/core/vehicles/road.h` | 52-55 `F1.roadCartesian`; 52-55 `Road.Motion` |
| `src/core/vehicles/road_cartesian.h` | 8-20 `F1.RoadKind`; 12-20 `F1.roadStart`; 12-20 `Kart.iRoad` |
| `src/core/vehicles/road_cartesian.hpp` | 4-34 `F1.roadCartesian`; 4-34 `Kart.roadCartesian`; 5-15 `Road.cartesian`; 18-34 `F1.allStates`; 18-34 `Kart.allStates`; 36-52 `F1.setState`; 36-52 `Kart.setState`; 54-75 `F1.roadInputLimits`; 54-75 `Kart.inputLimits`; 80-96 `F1.roadInputNames`; 80-96 `Kart.inputNames`; 86 `F1.keyName` |
| `src/core/vehicles/road_curvilinear.h` | 10-24 `F1.RoadKind`; 16-24 `F1.roadStart`; 16-24 `Kart.iRoad`; 37 `Propagation.Mounted.change`; 38-46 `LapVehicles.Circuit`; 49-60 `Road.curvature`; 80 `Road.eulerAnglesDot`; 121 `Propagation.Mounted`; 143-147 `Road.Motion` |
| `src/core/vehicles/road_curvilinear.hpp` | 4-40 `F1.roadCurvilinear`; 4-40 `Kart.roadCurvilinear`; 4-40 `Road.Vec3`; 5-21 `Road.update`; 18 `Outputs.f1Track`; 24-40 `F1.allStates`; 24-40 `Kart.allStates`; 43-59 `F1.setState`; 43-59 `Kart.setState`; 61-82 `F1.roadInputLimits`; 61-82 `Kart.inputLimits`; 85-100 `F1.roadInputNames`; 85-100 `Kart.inputNames`; 90 `F1.keyName`; 106-119 `Road.TrackPoint`; 122 `Road.tangent`; 124-126 `Road.normal`; 128-130 `Road.binormal` |
| `src/core/applications/steady_state.h` | 16-25 `SteadyState.Solution`; 73 `SteadyState.Goal`; 135, 193 `SteadyState.Goal`; 200 `SteadyState.Goal` |
| `src/core/applications/steady_state.hpp` | 11-61 `SteadyState.solveNum`; 16-61 `LapVehicles.f1Steady`; 16-61 `LapVehicles.kartSteady`; 16-61 `SteadyState.Car`; 16-36, 68-94 `SteadyState.trimProblem`; 16-22, 68-74 `SteadyState.startPoint`; 32-40 `SteadyState.continuation`; 36, 152 `SteadyState.SolverNum`; 44-60, 97-125 `SteadyState.report`; 60, 125 `LapVehicles.f1Steady`; 63-126 `SteadyState.solveAD`; 94, 203 `SteadyState.Nlp`; 94-100 `SteadyState.SolverAD`; 128-162 `SteadyState.maxLatNum`; 144-152, 178-203 `SteadyState.latProblem`; 164-294 `SteadyState.maxLatAD`; 174-181 `SteadyState.LatState`; 174-181 `SteadyState.latStart`; 201-244, 422-442, 512-528 `SteadyState.attempts`; 205-240 `SteadyState.latJudge`; 297-367 `SteadyState.maxLonNum`; 321, 392, 622, 718 `SteadyState.proportional`; 332-339, 399-424, 492-514 `SteadyState.lonProblem`; 338-348, 355-364, 646-655, 662-671 `SteadyState.lonNum`; 369-586 `SteadyState.maxLonAD`; 396-401 `SteadyState.LonState`; 426-441 `SteadyState.maxJudge`; 444-489, 531-583 `SteadyState.lonReport`; 493-499 `SteadyState.minLower`; 516-527 `SteadyState.minJudge`; 589-679 `SteadyState.ggNum`; 615-674 `SteadyState.ggLoopNum`; 682-881 `SteadyState.ggAD`; 711-872 `SteadyState.ggLoop`; 717-869 `SteadyState.ggPoint`; 725-869 `SteadyState.ggExtremes`; 748-758, 811, 820-829 `SteadyState.ggRun`; 800-822 `SteadyState.ggMin` |
| `src/core/tire/tire.h` | 20-36 `F1.frontStart`; 38-41 `Routing.TyreType`; 47 `Frames.newTyre`; 47-48 `Routing.freshTyre`; 62-65 `Routing.writeTable`; 62-65 `Routing.Tyre.fillXml`; 105 `Tyre.wheelTorque`; 108 `Tyre.forceTorque`; 127 `Tyre.dissipation`; 130, 133 `Chassis.axleForces`; 142 `Routing.allUsed`; 142 `Routing.Tyre.isReady`; 154, 157 `Tyre.updateOmega`; 163 `Frames.Frame`; 163 `Frames.Role`; 163 `Frames.Chassis.address`; 163-212 `Tyre.Kin`; 166-168 `Routing.Tyre`; 166-168 `Routing.tyreBaseNames`; 166-168 `Tyre.Name`; 170-197 `Outputs.TyreState`; 170-197 `Outputs.tyreValues`; 170-197 `VehicleNames.tyreOutputs` |
| `src/core/tire/tire.hpp` | 9-25 `Routing.readTyre`; 24 `Routing.readTable`; 30-41 `Routing.Tyre.setParameter`; 34 `Routing.setIn`; 36-40 `Tyre.setParameter`; 38-49 `Frames.updateFrames`; 44-75 `Kart.wheelUpdate`; 44-75 `Outputs.kartTyre`; 49 `Frames.Memory.setData`; 56-75 `Tyre.updateOmega`; 79-103 `Tyre.updateKappa`; 89-92 `F1.wheelUpdate`; 95 `F1.wheelUpdate`; 95 `Outputs.f1Tyre` |
| `src/core/tire/tire_pacejka.h` | 15-31 `F1.frontStart`; 60-130 `Tyre.SimpleTyre`; 116-118 `Routing.Tyre.isReady`; 117-118 `Routing.allUsed`; 148-152 `Routing.Tyre`; 148-152 `Routing.tyreOwnNames`; 148-152 `Tyre.Name`; 246-272 `Tyre.Std`; 291, 294 `Tyre.atLoad`; 291 `Tyre.maxKappa`; 294 `Tyre.maxLambda`; 297-321 `Tyre.Simple`; 321 `Tyre.muMin`; 324-337 `Routing.tyreModelNames` |
| `src/core/tire/tire_pacejka.hpp` | 9-27 `Routing.readTyre`; 20-23 `Routing.readTable`; 29-49 `Tyre.run`; 31-48 `Routing.Tyre.setParameter`; 31-49 `Tyre.setParameter`; 36-40 `Routing.setIn`; 36-43 `Tyre.assign`; 53-63 `Routing.Tyre.fillXml`; 67-73, 107-120 `F1.WheelOut`; 67-73 `F1.wheelUpdate`; 77-103 `Kart.wheelUpdate`; 94-103 `Kart.AxleK`; 114-119 `Chassis.Wheel`; 114-119 `Tyre.forceTorque`; 130-142 `Tyre.stdPureX`; 138 `Tyre.dfz`; 139 `Tyre.stdBx`; 141 `Tyre.magic`; 146-159 `Tyre.stdPureY`; 153-156 `Tyre.stdBy`; 163-169 `Tyre.stdX`; 173-179 `Tyre.stdY`; 183-192 `Tyre.initialise`; 196-209 `Tyre.simpleX`; 198, 215 `Tyre.atLoad`; 198 `Tyre.muXMax`; 202-204, 219-221 `Tyre.rho`; 213-226 `Tyre.simpleY`; 215 `Tyre.muYMax` |
| `src/core/vehicles/track_by_arcs.h` | 37 `Arcs.Point`; 75-81 `Arcs.Vec`; 75-81 `Arcs.Track`; 76-79 `Arcs.Seg` |
| `src/core/vehicles/track_by_arcs.hpp` | 4-8 `Arcs.defaultTrack`; 10-93 `Arcs.build`; 19-44 `Arcs.Node`; 23-92 `Arcs.buildFrom`; 25-61 `Arcs.advance`; 41-44 `Arcs.curvatureOf`; 52, 79-82 `Arcs.enorm`; 64-91 `Arcs.lastSeg`; 96-104 `Path.pseudoCurvature2`; 107-118 `Arcs.positionAt`; 129 `Arcs.yawRate`; 134-184 `Arcs.at'`; 143-150 `Arcs.locate`; 152-183 `Arcs.onSeg` |
| `src/core/vehicles/track_by_polynomial.h` | 29 `Track.Polys.leftLimit`; 31 `Track.Polys.rightLimit`; 35 `Track.Polys.totalLength`; 45 `Track.Polys.at`; 69-84 `Track.Polys` |
| `src/core/vehicles/track_by_polynomial.hpp` | 22-29 `Track.planar`; 22-65 `TrackPlanar.planarSamples`; 42-48 `TrackPlanar.Block`; 50-62 `TrackPlanar.blockSamples`; 51 `TrackPlanar.linspace`; 51-60 `TrackPlanar.Sample`; 59 `Track.planarHeading`; 60 `Track.planarCurvature`; 78-153 `Track.build`; 92-108 `Kerb.augmentAll`; 95-100 `Kerb.augment`; 110-127 `Track.closeWith`; 129-149 `Track.line`; 156-160 `Track.Polys.hasElevation` |

## 6. Axioms of each theorem

Output of `collectAxioms` (what `#print axioms` prints) for the theorems of MANIFEST.json, grouped by the set
of axioms. `Verif.` is left out of the names.

* **none** (5): `F1.C104_control_names`, `F1.C104_key`, `Kart.C163_names`, `Kart.C164_change_track`, `Kart.C164_kept_false`
* **propext** (7): `F1.C104_input_names`, `F1.C104_distinct`, `Mesh.C130_same_segment`, `Mesh.C131_undefined`, `Kart.C164_constructor`, `Control.C19_factories_consistent`, `Registry.C33_false_exact_length`
* **Quot.sound, propext** (46): `Transcription.C01_fresh_fits`, `Preprocessor.C114_bounds`, `Transcription.C12_zero_defects`, `Mesh.C128_fuel`, `Path.C133_ends_partial`, `Path.C134_rejected`, `Steady.C140_solve`, `Steady.C140_lateral`, `Steady.C140_longitudinal`, `Steady.C140_no_steps`, `Steady.C141_no_points`, `Steady.C143_rejected_partial`, `Steady.C145_defined`, `Steady.C145_numeric`, `LapFile.C149_determined_partial`, `CircuitFile.C153_saving`, `LapOptions.C170_no_options`, `LapOptions.C170_first`, `LapOptions.C171_initial_speed_false`, `LapOptions.C171_steady_state_speed_refused`, `LapOptions.C172_attribute`, `LapOptions.C174_documented_false`, `LapOptions.C180_sensitivity_false`, `CircuitOptions.C183_names`, `CircuitOptions.C183_weights`, `CircuitOptions.C184_closed_partial`, `CircuitOptions.C184_open_false`, `Python.C219_outputs`, `Control.C22_clear_keeps_structure`, `Parameter.C23_creation_accepted_iff`, `LapOptions.C262_lap_errors`, `LapOptions.C262_circuit`, `LapOptions.C263_lap`, `LapOptions.C263_circuit`, `LapOptions.C263_repeated`, `Registry.C33_print_in_buffer_partial`, `Registry.C33_false_negative_size`, `Registry.C35_aliases_round_trip`, `F1.C54_out_of_range`, `Preprocessor.C57_round_trip`, `Preprocessor.C59_without_elevation`, `Registry.C62_names_fit_partial`, `Registry.C62_false_zero_size`, `Registry.C62_false_variable_type`, `Registry.C67_blanks_ignored_partial`, `Kerbs.C68_false`
* **Classical.choice, Quot.sound, propext** (655): `Transcription.C01_direct_decode`, `Transcription.C01_direct_round_trip`, `Transcription.C01_direct_reencode`, `Transcription.C02_direct_size`, `Transcription.C03_direct_constraints`, `Transcription.C04_false_constant_control`, `Transcription.C04_derivative_size_partial`, `Transcription.C04_derivative_round_trip_partial`, `Transcription.C04_derivative_decode`, `Transcription.C05_derivative_constraints`, `Transcription.C06_cost_direct`, `Transcription.C06_lap_at_most_cost`, `Transcription.C06_no_dissipation`, `Transcription.C07_no_penalty_iff_constant`, `Transcription.C08_false`, `Transcription.C08_actual_penalty`, `Transcription.C08_rate_penalty_partial`, `Transcription.C09_times_increase`, `Transcription.C10_constant_speed`, `Routing.C100_round_trip_partial`, `Routing.C100_false`, `Routing.C101_evaluates`, `Routing.C101_unknown`, `Routing.C101_override`, `Routing.C102_accepts`, `Transcription.C103_derivative_built_iff`, `Transcription.C103_false`, `F1.C103_false_f1`, `F1.C104_road_states`, `F1.C104_inputs_read`, `F1.C104_controls_read`, `F1.C105_values_partial`, `F1.C105_false`, `F1.C105_tables`, `F1.C106_curvilinear`, `F1.C106_cartesian`, `F1.C106_goes_straight`, `F1.C107_rate`, `F1.C107_energy_exact`, `F1.C107_energy_partial`, `F1.C107_false`, `F1.C108_motion`, `F1.C108_steady`, `F1.C109_flat_road`, `Transcription.C11_false`, `Transcription.C11_actual_closed`, `Transcription.C11_same_quadrature_partial`, `F1.C110_round_trip`, `F1.C110_other_controls`, `F1.C111_names`, `F1.C111_tyre_energies`, `F1.C111_engine_energy`, `F1.C112_slip_allowed_partial`, `F1.C112_all_tyres`, `F1.C112_false`, `F1.C113_flat_partial`, `F1.C113_elevated`, `F1.C113_elevated_alternates`, `Preprocessor.C114_feasible_box`, `Preprocessor.C114_start_inside`, `Preprocessor.C115_closing_partial`, `Preprocessor.C115_false`, `Preprocessor.C116_filled`, `Preprocessor.C116_rates`, `Preprocessor.C116_closed`, `Preprocessor.C116_open`, `Preprocessor.C116_one_turn`, `Preprocessor.C116_start_line`, `Preprocessor.C116_heading`, `Preprocessor.C117_open`, `Preprocessor.C117_closed_partial`, `Preprocessor.C117_flat_start_invariant`, `Preprocessor.C117_false`, `Preprocessor.C118_scaled`, `Preprocessor.C118_increasing`, `Preprocessor.C119_errors`, `Preprocessor.C119_constant`, `Transcription.C12_direct`, `Transcription.C12_derivative`, `Preprocessor.C120_transform`, `Preprocessor.C120_orientation`, `Preprocessor.C121_frame`, `Track.C122_points`, `Track.C122_limits`, `Track.C123_closed`, `Track.C123_open`, `Track.C124_heading_partial`, `Track.C124_false`, `Track.C125_rates_partial`, `Track.C125_false`, `Track.C126_planar`, `Track.C126_check`, `Track.C127_elevation`, `Mesh.C128_mesh`, `Mesh.C128_too_short`, `Mesh.C128_endless`, `Mesh.C128_equispaced`, `Mesh.C129_ratio_partial`, `Mesh.C129_false`, `Transcription.C13_accepted_iff`, `Transcription.C13_rejected_throws`, `Transcription.C13_accepted_problem`, `Mesh.C130_sizes_partial`, `Mesh.C130_false`, `Mesh.C131_trim_partial`, `Mesh.C131_both_sides_partial`, `Mesh.C131_false`, `Mesh.C132_inside`, `Mesh.C132_outside`, `Mesh.C132_rejects_partial`, `Mesh.C132_false`, `Path.C133_false`, `Path.C134_layout`, `Path.C134_solution`, `Path.C134_room`, `Path.C135_inside_partial`, `Path.C135_arcs`, `Path.C135_false`, `Path.C136_filled`, `Path.C136_opposite_pitch`, `Path.C136_flat_partial`, `Path.C136_false`, `Path.C137_rotation`, `Path.C137_closed`, `Path.C137_open`, `Path.C137_start_partial`, `Path.C137_false`, `Path.C138_periodic`, `Path.C138_undefined`, `Path.C139_centreline`, `Path.C139_criterion`, `Path.C139_false`, `Transcription.C14_false`, `Transcription.C14_false_snapped_start`, `Transcription.C14_increasing_partial`, `Steady.C140_numeric_partial`, `Steady.C140_false`, `Steady.C141_diagram`, `Steady.C141_range`, `Steady.C141_order_partial`, `Steady.C141_order_false`, `Steady.C142_lateral_partial`, `Steady.C142_best`, `Steady.C142_longitudinal_partial`, `Steady.C142_false`, `Steady.C143_false`, `Steady.C144_refinement_partial`, `Steady.C144_false`, `LapFile.C146_round_trip_partial`, `LapFile.C146_contents`, `LapFile.C146_sizes`, `LapFile.C146_false`, `LapFile.C147_accepted`, `LapFile.C147_rejected_partial`, `LapFile.C147_false`, `LapFile.C148_defined_iff`, `LapFile.C148_default`, `LapFile.C149_saved_again_partial`, `LapFile.C149_false`, `Transcription.C15_bounds_direct`, `Transcription.C15_bounds_derivative`, `CircuitFile.C150_round_trip_partial`, `CircuitFile.C150_exact`, `CircuitFile.C150_false`, `CircuitFile.C151_saved_again_partial`, `CircuitFile.C151_false`, `CircuitFile.C152_accepted`, `CircuitFile.C152_never_read`, `CircuitFile.C152_rejected_partial`, `CircuitFile.C152_false`, `CircuitFile.C154_same_track`, `Kart.C155_momentum`, `Kart.C155_off_centre_false`, `Kart.C156_moment_partial`, `Kart.C156_moment_defect`, `Kart.C156_moment_false`, `Kart.C157_determined_partial`, `Kart.C157_determined_false`, `Kart.C158_wheel_motion_partial`, `Kart.C158_wheel_motion_false`, `Kart.C159_front_rolls`, `Kart.C159_front_locked_false`, `Transcription.C16_time_per_metre_derivative`, `Kart.C160_steady_accelerations`, `Kart.C161_steady_held_partial`, `Kart.C161_steady_held_false`, `Kart.C162_round_trip`, `Kart.C162_all_set`, `Kart.C163_meaning`, `Kart.C163_defaults`, `Kart.C163_guess`, `Kart.C163_steady_inside`, `Kart.C163_direct_torque_false`, `Kart.C165_acceleration_partial`, `Kart.C165_acceleration_false`, `Kart.C166_states`, `Kart.C166_recovered`, `Kart.C167_slips`, `Kart.C168_mirror_partial`, `Kart.C168_goes_straight`, `Kart.C168_mirror_false`, `Kart.C169_same_motion`, `Kart.C169_heading`, `Transcription.C17_laptime_derivative`, `LapOptions.C170_options_take_their_value`, `LapOptions.C170_outputs`, `LapOptions.C171_initial_speed_partial`, `LapOptions.C172_control_variables`, `LapOptions.C172_known_types`, `LapOptions.C172_unknown_refused`, `LapOptions.C172_f1_defaults`, `LapOptions.C172_kart_defaults`, `LapOptions.C173_variable_bounds`, `LapOptions.C173_integral_constraints`, `LapOptions.C173_bounds_are_used`, `LapOptions.C174_accepted_iff_partial`, `LapOptions.C175_initial_condition_partial`, `LapOptions.C175_short_false`, `LapOptions.C175_long_undefined`, `LapOptions.C175_required`, `LapOptions.C176_as_configured`, `LapOptions.C176_checks_pass_iff`, `LapOptions.C176_starts_from_steady_state`, `LapOptions.C177_open_start_partial`, `LapOptions.C177_open_start_false`, `LapOptions.C177_no_points_undefined`, `LapOptions.C178_vectors`, `LapOptions.C178_unknown_refused`, `LapOptions.C179_warm_start_partial`, `LapOptions.C179_needs_saved_lap`, `LapOptions.C179_arclength_false`, `LapOptions.C179_more_points`, `Transcription.C18_false`, `Transcription.C18_actual_controls`, `Transcription.C18_actual_controls_derivative`, `Transcription.C18_inputs_partial`, `Transcription.C18_inputs_derivative_partial`, `LapOptions.C180_sensitivity_partial`, `Kart.C181_axle_energy`, `Kart.C181_engine_power`, `Kart.C182_air`, `CircuitOptions.C183_accepted`, `CircuitOptions.C185_mesh_partial`, `CircuitOptions.C185_negative_false`, `CircuitOptions.C186_stored_partial`, `CircuitOptions.C186_padded_false`, `CircuitOptions.C186_overrun_false`, `CircuitOptions.C186_file`, `CircuitOptions.C187_failure_partial`, `CircuitOptions.C187_not_computed`, `CircuitOptions.C187_failure_false`, `Transcription.C188_no_memory`, `Transcription.C189_set_up`, `Transcription.C189_refused`, `Transcription.C189_returned`, `Control.C19_validation_accepts_iff`, `Control.C19_validation_idempotent`, `Control.C19_rejected_effect`, `Transcription.C190_own_times`, `Transcription.C190_lap_obeys`, `Transcription.C191_no_better_lap`, `Transcription.C191_fastest`, `Transcription.C192_warm_start`, `LapVehicles.C193_f1_partial`, `LapVehicles.C193_f1_false`, `LapVehicles.C193_kart`, `LapVehicles.C194_f1_lap`, `LapVehicles.C195_kart_lap`, `SteadyVehicles.C196_f1`, `SteadyVehicles.C197_kart`, `SteadyVehicles.C197_numeric`, `SteadyVehicles.C198_f1_partial`, `SteadyVehicles.C198_kart_partial`, `SteadyVehicles.C198_failure`, `SteadyVehicles.C198_short`, `SteadyVehicles.C198_false`, `SteadyVehicles.C199_f1_partial`, `SteadyVehicles.C199_kart_partial`, `SteadyVehicles.C199_defined`, `SteadyVehicles.C199_false`, `SteadyVehicles.C199_unknown_false`, `Control.C20_piecewise_constant`, `Control.C20_constant_between_checkpoints`, `Control.C20_empty_hypermesh_ub`, `Control.C20_unsorted_hypermesh_accepted`, `Control.C20_value_and_derivative_ub`, `Fit.C200_cross_sections`, `Fit.C200_halfway`, `Fit.C200_fuel`, `Fit.C201_arclength`, `Fit.C202_constructor`, `Fit.C202_outcome`, `Fit.C203_track`, `Fit.C203_side`, `Fit.C204_optimal_partial`, `Fit.C205_closed_partial`, `Fit.C205_false`, `Fit.C206_guess`, `Fit.C206_heading`, `LapVehicles.C207_energies`, `Steady.C208_longitudinal`, `Steady.C208_diagram`, `Steady.C208_numeric`, `Fit.C209_errors`, `Control.C21_control_array`, `Control.C21_control_array_and_derivative`, `LapVehicles.C210_f1_lap_elevated`, `LapVehicles.C211_shared_partial`, `LapVehicles.C211_shared_false`, `Propagation.C212_f1_track`, `Propagation.C212_f1_plane`, `Propagation.C212_kart_track`, `Propagation.C212_kart_plane`, `Propagation.C213_failure`, `Propagation.C213_short`, `Propagation.C213_outcome`, `Propagation.C213_options_failure`, `Propagation.C213_no_track`, `Propagation.C213_options_partial`, `Propagation.C213_false`, `Propagation.C213_options_false`, `Propagation.C214_same`, `Propagation.C214_change`, `Propagation.C214_propagate`, `Propagation.C214_false`, `Propagation.C215_stays`, `Propagation.C215_output`, `Python.C216_vector`, `Python.C216_scalar`, `Python.C216_taken`, `Python.C216_missing`, `Python.C216_false_null`, `Python.C217_download_variables`, `Python.C217_first_failure`, `Python.C218_all_variables_partial`, `Python.C218_false_listed`, `Python.C218_false_raised`, `Python.C218_false_empty_prefix`, `Python.C219_types`, `Python.C219_buffers`, `Python.C219_python`, `Control.C22_statistics`, `Python.C220_diagram_partial`, `Python.C220_returns`, `Python.C220_false`, `Python.C221_track`, `Outputs.C222_f1`, `Outputs.C222_kart`, `Outputs.C222_unknown`, `Outputs.C222_short`, `Outputs.C223_f1`, `Outputs.C223_f1_flat`, `Outputs.C223_kart`, `Outputs.C223_kart_plane`, `Outputs.C224_f1`, `Outputs.C224_f1_flat`, `Outputs.C224_kart`, `Outputs.C225_f1`, `Outputs.C225_kart`, `Outputs.C226_heading_partial`, `Outputs.C226_heading_kart`, `Outputs.C226_heading_false`, `Outputs.C227_moves`, `Outputs.C227_flat`, `Outputs.C228_f1`, `Outputs.C228_f1_flat`, `Outputs.C228_kart`, `Outputs.C229_names_partial`, `Outputs.C229_errors`, `Outputs.C229_overrun`, `Outputs.C229_names_false`, `Registry.C230_create`, `Registry.C231_read`, `Registry.C232_f1`, `Registry.C232_kart`, `Registry.C232_track`, `Registry.C233_unknown_partial`, `Registry.C233_unknown_false`, `Registry.C234_call`, `Registry.C234_origin`, `Outputs.C235_f1`, `Outputs.C235_kart`, `Outputs.C236_f1_partial`, `Outputs.C236_kart_partial`, `Outputs.C236_straight`, `Outputs.C236_indicator_false`, `Frames.C237_values`, `Frames.C237_apart`, `Frames.C238_false`, `Path.C239_outcome`, `Path.C239_rejected`, `Path.C239_on_track`, `Path.C239_arcs`, `Parameter.C24_interpolates`, `Parameter.C24_total`, `Path.C240_open_partial`, `Path.C240_closed_partial`, `Path.C240_false`, `Path.C240_false_always`, `Path.C241_saved_partial`, `Path.C241_false`, `PoweredAxle.C242_load`, `PoweredAxle.C242_motion`, `PoweredAxle.C242_energy`, `PoweredAxle.C242_everywhere`, `Track.C243_samples`, `Track.C244_follows_partial`, `Track.C244_false`, `Track.C244_false_turn`, `Track.C244_false_closed`, `Outputs.C245_plane`, `Outputs.C245_moves_partial`, `Outputs.C245_false`, `LapOutputs.C246_f1`, `LapOutputs.C246_kart`, `LapVehicles.C247_lap`, `LapVehicles.C247_best`, `LapVehicles.C247_laptime`, `LapVehicles.C248_lap_partial`, `LapVehicles.C248_best_partial`, `LapVehicles.C248_laptime_partial`, `LapVehicles.C248_equations_false`, `Path.C249_edges_partial`, `Path.C249_best_partial`, `Path.C249_false`, `Parameter.C25_false_outside_mesh`, `Parameter.C25_outside_partial`, `Parameter.C25_continuous_partial`, `Transcription.C250_lap_partial`, `Transcription.C250_best_partial`, `Transcription.C250_laptime_partial`, `Transcription.C250_false_penalty`, `Transcription.C250_false_integral`, `Transcription.C251_obeys`, `Transcription.C251_looser`, `Transcription.C251_laptime`, `Transcription.C252_guess`, `Transcription.C252_laptime`, `Transcription.C253_obeys`, `Transcription.C253_freer`, `Transcription.C253_laptime`, `Transcription.C254_smoother`, `Transcription.C254_laptime`, `LapVehicles.C255_f1`, `LapVehicles.C255_kart`, `LapVehicles.C255_outputs_f1`, `LapVehicles.C255_outputs_kart`, `LapVehicles.C256_track_partial`, `LapVehicles.C256_false`, `Fit.C257_east`, `Fit.C258_ends_partial`, `Fit.C258_false`, `LapVehicles.C259_f1`, `LapVehicles.C259_kart`, `Parameter.C26_set_then_get`, `Parameter.C26_get_then_set`, `Parameter.C26_aliases_parallel`, `Routing.C260_last`, `Routing.C260_order`, `Routing.C260_file`, `Routing.C261_by_hand`, `LapOptions.C262_lap`, `LapOptions.C262_step`, `LapOptions.C263_step`, `Path.C264_paths`, `Path.C264_curvature`, `Path.C264_least`, `Path.C265_paths`, `Path.C265_curvature`, `Path.C265_least`, `Fit.C266_tracks`, `Fit.C266_misfit`, `Fit.C266_moved`, `Fit.C267_guess`, `Fit.C267_turned`, `Fit.C268_tracks`, `Fit.C268_misfit`, `Fit.C269_guess`, `Fit.C269_mirrored`, `Parameter.C27_paths_unique`, `Parameter.C27_declaration_atomic`, `Parameter.C27_constant_declaration_atomic`, `Fit.C270_estimate`, `Fit.C270_fit`, `Fit.C271_search`, `Fit.C272_estimate_partial`, `Fit.C272_false`, `Trim.C273_trimmed`, `Trim.C273_prefix`, `Trim.C273_python_partial`, `Trim.C273_download_partial`, `Trim.C273_false`, `Python.C274_call_partial`, `Python.C274_false`, `Python.C275_print_partial`, `Python.C275_false`, `Registry.C28_call_keeps_names_unique`, `Registry.C28_names_unique_partial`, `Registry.C28_circuit_preprocessor_partial`, `Registry.C28_false_circuit_preprocessor`, `Registry.C29_scalar_kept`, `Registry.C29_vector_kept`, `Registry.C29_scalar_create_then_download`, `Registry.C29_vector_create_then_download`, `Registry.C30_copy`, `Registry.C30_move`, `Registry.C31_delete_partial`, `Registry.C31_delete_twice`, `Registry.C31_false_dot`, `Registry.C31_false_line_break`, `Registry.C32_throw_changes_nothing`, `Registry.C32_create_scalar_accepted_iff`, `Registry.C34_download_vector`, `Registry.C34_track_download`, `Kerbs.C36_ordered_partial`, `Kerbs.C36_all_positive_partial`, `Kerbs.C36_false`, `Kerbs.C37_first_kerb`, `Kerbs.C37_only_kerb`, `Arcs.C38_smooth`, `Arcs.C39_lengths`, `Arcs.C39_passes_through_starts`, `Arcs.C40_unknown_rejected_partial`, `Arcs.C40_known_accepted`, `Arcs.C40_false`, `Road.C41_moves_with_the_car`, `Road.C41_advances_iff`, `Road.C41_flat_heading`, `Road.C41_euler_rates`, `Road.C42_orthonormal`, `Road.C42_flat`, `Road.C43_cartesian`, `Power.C44_power`, `Power.C44_never_brakes`, `Power.C44_linear_in_throttle`, `Power.C44_continuous`, `Tyre.C45_friction_ellipse`, `Tyre.C46_simple`, `Tyre.C46_standard`, `Tyre.C47_combined_at_most_pure`, `Tyre.C48_inverse`, `Tyre.C48_slips`, `Power.C49_suspension`, `Power.C50_power_balance`, `Power.C50_at_most_engine_power`, `Power.C51_brakes_dissipate`, `Power.C51_bias_distributes`, `Power.C51_kart`, `Chassis.C52_vertical`, `Chassis.C52_magnitude`, `F1.C53_all_set`, `F1.C53_angles`, `F1.C53_inputs_partial`, `F1.C53_controls`, `F1.C53_false`, `F1.C54_partition`, `F1.C54_f1`, `F1.C54_algebraic_states_vanish`, `Routing.C55_copies_agree`, `Routing.C55_same_evaluation`, `F1.C56_constraints`, `F1.C56_overshoot`, `F1.C56_wheels_inside_partial`, `F1.C56_false`, `Preprocessor.C57_solution`, `Preprocessor.C58_boundaries`, `Preprocessor.C58_same_as_road`, `Preprocessor.C58_widths`, `Preprocessor.C59_with_elevation`, `Preprocessor.C60_continuous`, `Preprocessor.C60_towards_next`, `Registry.C61_lap_only_adds_partial`, `Registry.C61_taken_name_adds_nothing_partial`, `Registry.C61_false_leftover`, `Registry.C63_lap_saves_requested`, `Registry.C63_lap_saves_derivatives`, `Transcription.C64_constraint_bounds`, `Transcription.C64_rows_direct`, `Transcription.C64_rows_derivative`, `Transcription.C65_warm_start_direct`, `Transcription.C65_warm_start_derivative`, `Transcription.C65_cold_start`, `Transcription.C66_integral_quantities`, `Registry.C67_false`, `Kerbs.C68_kerbs_placed_partial`, `Kerbs.C69_limits_with_kerbs`, `Arcs.C70_closes_partial`, `Arcs.C70_false`, `Arcs.C71_curvature`, `Arcs.C72_offset_line`, `Road.C73_curvature_rotates_frame`, `Power.C74_reported_power_partial`, `Power.C74_false`, `Power.C75_torque_derivative_partial`, `Power.C75_curve_derivative_partial`, `Power.C75_actual_curve`, `Power.C75_false`, `Arcs.C76_evaluation_defined`, `Power.C77_tyres_consistent_partial`, `Power.C77_false`, `Power.C78_tyre_velocity_partial`, `Power.C78_false`, `Tyre.C79_rolls_freely_partial`, `Tyre.C79_false`, `Tyre.C80_derived_coefficients`, `Tyre.C80_accepts`, `Tyre.C80_sets_one`, `Tyre.C81_peak_partial`, `Tyre.C81_false`, `Tyre.C82_simple_dissipates`, `Tyre.C82_standard_dissipates`, `Tyre.C83_power_balance_partial`, `Tyre.C83_defect`, `Tyre.C83_moment`, `Tyre.C83_false`, `Tyre.C84_longitudinal_stiffness`, `Tyre.C84_lateral_stiffness`, `Tyre.C84_lateral_limit`, `Tyre.C85_declared_friction_partial`, `Tyre.C85_declared_slips`, `Tyre.C85_false`, `Chassis.C86_momentum`, `Chassis.C86_total_force`, `Chassis.C87_com_velocity_partial`, `Chassis.C87_false`, `Chassis.C88_angular_momentum_partial`, `Chassis.C88_false`, `Chassis.C89_torque_partial`, `Chassis.C89_defect`, `Chassis.C89_false`, `Chassis.C90_roll_balance`, `Chassis.C90_converse`, `Chassis.C91_components`, `Chassis.C91_rates`, `Chassis.C92_relative_velocity`, `Chassis.C92_directions`, `Chassis.C92_only_relative`, `Chassis.C93_magnitude_partial`, `Chassis.C93_false`, `Chassis.C94_indicator`, `Chassis.C94_ackermann`, `Chassis.C94_mirror_partial`, `Chassis.C94_false`, `Chassis.C95_yaw_rate`, `Chassis.C95_angular_velocity`, `Chassis.C96_pushes`, `Chassis.C96_balance`, `Routing.C97_accepts`, `Routing.C97_changes_exactly`, `Routing.C97_last_value`, `Routing.C97_both_tyres`, `Routing.C98_ready_partial`, `Routing.C98_complete`, `Routing.C98_false`, `Routing.C99_geometry`
