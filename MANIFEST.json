{
 "claims": [
  {
   "property": "C01",
   "status": "proved",
   "theorems": [
    "Verif.Transcription.C01_fresh_fits",
    "Verif.Transcription.C01_direct_decode",
    "Verif.Transcription.C01_direct_round_trip",
    "Verif.Transcription.C01_direct_reencode"
   ],
   "note": ""
  },
  {
   "property": "C02",
   "status": "proved",
   "theorems": [
    "Verif.Transcription.C02_direct_size"
   ],
   "note": ""
  },
  {
   "property": "C03",
   "status": "proved",
   "theorems": [
    "Verif.Transcription.C03_direct_constraints"
   ],
   "note": "Hypotheses: accepted request, vehicle with consistent compile-time sizes, hypermeshes that increase and start at or before the mesh (see C20)."
  },
  {
   "property": "C04",
   "status": "partial",
   "theorems": [
    "Verif.Transcription.C04_false_constant_control",
    "Verif.Transcription.C04_derivative_size_partial",
    "Verif.Transcription.C04_derivative_round_trip_partial",
    "Verif.Transcription.C04_derivative_decode"
   ],
   "note": "The code violates C04: the missing break in compute_derivative stores a constant control twice, past the end of the vectors (proved for every accepted request with a constant control). Proved without constant controls."
  },
  {
   "property": "C05",
   "status": "proved",
   "theorems": [
    "Verif.Transcription.C05_derivative_constraints"
   ],
   "note": "Hypotheses: accepted request, vehicle with consistent compile-time sizes, hypermeshes that increase and start at or before the mesh (see C20)."
  },
  {
   "property": "C06",
   "status": "proved",
   "theorems": [
    "Verif.Transcription.C06_cost_direct",
    "Verif.Transcription.C06_lap_at_most_cost",
    "Verif.Transcription.C06_no_dissipation"
   ],
   "note": "Hypotheses: accepted request, vehicle with consistent compile-time sizes, hypermeshes that increase and start at or before the mesh (see C20)."
  },
  {
   "property": "C07",
   "status": "proved",
   "theorems": [
    "Verif.Transcription.C07_no_penalty_iff_constant"
   ],
   "note": "Hypotheses: accepted request, vehicle with consistent compile-time sizes, hypermeshes that increase and start at or before the mesh (see C20)."
  },
  {
   "property": "C08",
   "status": "partial",
   "theorems": [
    "Verif.Transcription.C08_false",
    "Verif.Transcription.C08_actual_penalty",
    "Verif.Transcription.C08_rate_penalty_partial"
   ],
   "note": "The code violates C08: dcontrols_dt[i-i] takes the left rate of every inner element at the first node (witness, and the penalty actually computed). Proved when all left rates have the same square. Hypotheses: accepted request, vehicle with consistent compile-time sizes, hypermeshes that increase and start at or before the mesh (see C20)."
  },
  {
   "property": "C09",
   "status": "proved",
   "theorems": [
    "Verif.Transcription.C09_times_increase"
   ],
   "note": "Hypotheses: accepted request, vehicle with consistent compile-time sizes, hypermeshes that increase and start at or before the mesh (see C20)."
  },
  {
   "property": "C10",
   "status": "proved",
   "theorems": [
    "Verif.Transcription.C10_constant_speed"
   ],
   "note": "Hypotheses: accepted request, vehicle with consistent compile-time sizes, hypermeshes that increase and start at or before the mesh (see C20)."
  },
  {
   "property": "C100",
   "status": "partial",
   "theorems": [
    "Verif.Routing.C100_round_trip_partial",
    "Verif.Routing.C100_false"
   ],
   "note": "The code violates C100: the document has neither the wind nor the type of the tyres (witness). Proved for everything else."
  },
  {
   "property": "C101",
   "status": "proved",
   "theorems": [
    "Verif.Routing.C101_evaluates",
    "Verif.Routing.C101_unknown",
    "Verif.Routing.C101_override"
   ],
   "note": ""
  },
  {
   "property": "C102",
   "status": "proved",
   "theorems": [
    "Verif.Routing.C102_accepts"
   ],
   "note": ""
  },
  {
   "property": "C103",
   "status": "partial",
   "theorems": [
    "Verif.Transcription.C103_derivative_built_iff",
    "Verif.Transcription.C103_false",
    "Verif.F1.C103_false_f1"
   ],
   "note": "Exact condition proved. The promise is broken by the F1 car, which declares three rate limits for four controls: a fourth full-mesh control is undefined behaviour (witness)."
  },
  {
   "property": "C104",
   "status": "proved",
   "theorems": [
    "Verif.F1.C104_input_names",
    "Verif.F1.C104_control_names",
    "Verif.F1.C104_distinct",
    "Verif.F1.C104_key",
    "Verif.F1.C104_road_states",
    "Verif.F1.C104_inputs_read",
    "Verif.F1.C104_controls_read"
   ],
   "note": ""
  },
  {
   "property": "C105",
   "status": "partial",
   "theorems": [
    "Verif.F1.C105_values_partial",
    "Verif.F1.C105_false",
    "Verif.F1.C105_tables"
   ],
   "note": "The arclength argument is ignored: true where the track is as at the start (witness otherwise). The derivatives themselves are computed by an external library; the unpacking of its tables is proved."
  },
  {
   "property": "C106",
   "status": "proved",
   "theorems": [
    "Verif.F1.C106_curvilinear",
    "Verif.F1.C106_cartesian",
    "Verif.F1.C106_goes_straight"
   ],
   "note": ""
  },
  {
   "property": "C107",
   "status": "partial",
   "theorems": [
    "Verif.F1.C107_rate",
    "Verif.F1.C107_energy_exact",
    "Verif.F1.C107_energy_partial",
    "Verif.F1.C107_false"
   ],
   "note": "Exact balance with the extra term of deformed tyres; as stated for undeformed tyres; witness for a deformed one."
  },
  {
   "property": "C108",
   "status": "proved",
   "theorems": [
    "Verif.F1.C108_motion",
    "Verif.F1.C108_steady"
   ],
   "note": ""
  },
  {
   "property": "C109",
   "status": "proved",
   "theorems": [
    "Verif.F1.C109_flat_road"
   ],
   "note": ""
  },
  {
   "property": "C11",
   "status": "partial",
   "theorems": [
    "Verif.Transcription.C11_false",
    "Verif.Transcription.C11_actual_closed",
    "Verif.Transcription.C11_same_quadrature_partial"
   ],
   "note": "The code violates C11: the closing element weighs its ends the other way round (witness with sigma=1, and the exact difference). Proved for open laps or sigma=1/2. Hypotheses: accepted request, vehicle with consistent compile-time sizes, hypermeshes that increase and start at or before the mesh (see C20)."
  },
  {
   "property": "C110",
   "status": "proved",
   "theorems": [
    "Verif.F1.C110_round_trip",
    "Verif.F1.C110_other_controls"
   ],
   "note": ""
  },
  {
   "property": "C111",
   "status": "proved",
   "theorems": [
    "Verif.F1.C111_names",
    "Verif.F1.C111_tyre_energies",
    "Verif.F1.C111_engine_energy"
   ],
   "note": ""
  },
  {
   "property": "C112",
   "status": "partial",
   "theorems": [
    "Verif.F1.C112_slip_allowed_partial",
    "Verif.F1.C112_all_tyres",
    "Verif.F1.C112_false"
   ],
   "note": "True for loads up to the weight of the car; false above (witness within the bounds of the loads)."
  },
  {
   "property": "C113",
   "status": "partial",
   "theorems": [
    "Verif.F1.C113_flat_partial",
    "Verif.F1.C113_elevated",
    "Verif.F1.C113_elevated_alternates"
   ],
   "note": "Proved on flat tracks. On elevated tracks the exact condition is proved, which alternating violations satisfy."
  },
  {
   "property": "C114",
   "status": "proved",
   "theorems": [
    "Verif.Preprocessor.C114_bounds",
    "Verif.Preprocessor.C114_feasible_box",
    "Verif.Preprocessor.C114_start_inside"
   ],
   "note": ""
  },
  {
   "property": "C115",
   "status": "partial",
   "theorems": [
    "Verif.Preprocessor.C115_closing_partial",
    "Verif.Preprocessor.C115_false"
   ],
   "note": "The code violates C115 on a circuit that crosses itself (figure of eight, witness). Proved for a total heading change of one turn."
  },
  {
   "property": "C116",
   "status": "proved",
   "theorems": [
    "Verif.Preprocessor.C116_filled",
    "Verif.Preprocessor.C116_rates",
    "Verif.Preprocessor.C116_closed",
    "Verif.Preprocessor.C116_open",
    "Verif.Preprocessor.C116_one_turn",
    "Verif.Preprocessor.C116_start_line",
    "Verif.Preprocessor.C116_heading"
   ],
   "note": ""
  },
  {
   "property": "C117",
   "status": "partial",
   "theorems": [
    "Verif.Preprocessor.C117_open",
    "Verif.Preprocessor.C117_closed_partial",
    "Verif.Preprocessor.C117_flat_start_invariant",
    "Verif.Preprocessor.C117_false"
   ],
   "note": "The code violates C117 with elevation: the closing element lacks the pitch and roll terms (witness). Proved on flat circuits."
  },
  {
   "property": "C118",
   "status": "proved",
   "theorems": [
    "Verif.Preprocessor.C118_scaled",
    "Verif.Preprocessor.C118_increasing"
   ],
   "note": ""
  },
  {
   "property": "C119",
   "status": "proved",
   "theorems": [
    "Verif.Preprocessor.C119_errors",
    "Verif.Preprocessor.C119_constant"
   ],
   "note": ""
  },
  {
   "property": "C12",
   "status": "proved",
   "theorems": [
    "Verif.Transcription.C12_zero_defects",
    "Verif.Transcription.C12_direct",
    "Verif.Transcription.C12_derivative"
   ],
   "note": "Hypotheses: accepted request, vehicle with consistent compile-time sizes, hypermeshes that increase and start at or before the mesh (see C20)."
  },
  {
   "property": "C120",
   "status": "proved",
   "theorems": [
    "Verif.Preprocessor.C120_transform",
    "Verif.Preprocessor.C120_orientation"
   ],
   "note": ""
  },
  {
   "property": "C121",
   "status": "proved",
   "theorems": [
    "Verif.Preprocessor.C121_frame"
   ],
   "note": ""
  },
  {
   "property": "C122",
   "status": "proved",
   "theorems": [
    "Verif.Track.C122_points",
    "Verif.Track.C122_limits"
   ],
   "note": ""
  },
  {
   "property": "C123",
   "status": "proved",
   "theorems": [
    "Verif.Track.C123_closed",
    "Verif.Track.C123_open"
   ],
   "note": ""
  },
  {
   "property": "C124",
   "status": "partial",
   "theorems": [
    "Verif.Track.C124_heading_partial",
    "Verif.Track.C124_false"
   ],
   "note": "The code violates C124 on the closing element of every closed circuit: the heading jumps back by the full turn. Proved for the others."
  },
  {
   "property": "C125",
   "status": "partial",
   "theorems": [
    "Verif.Track.C125_rates_partial",
    "Verif.Track.C125_false"
   ],
   "note": "The code violates C125: the rates are read from the second derivatives (witness). Proved where both agree."
  },
  {
   "property": "C126",
   "status": "proved",
   "theorems": [
    "Verif.Track.C126_planar",
    "Verif.Track.C126_check"
   ],
   "note": ""
  },
  {
   "property": "C127",
   "status": "proved",
   "theorems": [
    "Verif.Track.C127_elevation"
   ],
   "note": ""
  },
  {
   "property": "C128",
   "status": "proved",
   "theorems": [
    "Verif.Mesh.C128_mesh",
    "Verif.Mesh.C128_too_short",
    "Verif.Mesh.C128_fuel",
    "Verif.Mesh.C128_endless",
    "Verif.Mesh.C128_equispaced"
   ],
   "note": "With larger sizes the behaviour is undefined and with sizes that are not positive the loop does not end; both are proved."
  },
  {
   "property": "C129",
   "status": "partial",
   "theorems": [
    "Verif.Mesh.C129_ratio_partial",
    "Verif.Mesh.C129_false"
   ],
   "note": "The code violates C129 at the last six elements, which are made equal (witness). Proved for the others."
  },
  {
   "property": "C13",
   "status": "proved",
   "theorems": [
    "Verif.Transcription.C13_accepted_iff",
    "Verif.Transcription.C13_rejected_throws",
    "Verif.Transcription.C13_accepted_problem"
   ],
   "note": ""
  },
  {
   "property": "C130",
   "status": "partial",
   "theorems": [
    "Verif.Mesh.C130_sizes_partial",
    "Verif.Mesh.C130_same_segment",
    "Verif.Mesh.C130_false"
   ],
   "note": "The code violates C130 for a point in the segment of a breakpoint (two witnesses). Proved for the others."
  },
  {
   "property": "C131",
   "status": "partial",
   "theorems": [
    "Verif.Mesh.C131_trim_partial",
    "Verif.Mesh.C131_both_sides_partial",
    "Verif.Mesh.C131_undefined",
    "Verif.Mesh.C131_false"
   ],
   "note": "The code violates C131: the end points get altitude 0 (witness), and the behaviour is undefined if the finish is the first coordinate. Proved on the map."
  },
  {
   "property": "C132",
   "status": "partial",
   "theorems": [
    "Verif.Mesh.C132_inside",
    "Verif.Mesh.C132_outside",
    "Verif.Mesh.C132_rejects_partial",
    "Verif.Mesh.C132_false"
   ],
   "note": "The code violates C132: a finish behind the start is accepted within one segment (witness). Proved for different segments."
  },
  {
   "property": "C133",
   "status": "partial",
   "theorems": [
    "Verif.Path.C133_ends_partial",
    "Verif.Path.C133_false"
   ],
   "note": "The code violates C133: only the first and last stations are checked (witness). Proved for them."
  },
  {
   "property": "C134",
   "status": "proved",
   "theorems": [
    "Verif.Path.C134_layout",
    "Verif.Path.C134_rejected",
    "Verif.Path.C134_solution",
    "Verif.Path.C134_room"
   ],
   "note": ""
  },
  {
   "property": "C135",
   "status": "partial",
   "theorems": [
    "Verif.Path.C135_inside_partial",
    "Verif.Path.C135_arcs",
    "Verif.Path.C135_false"
   ],
   "note": "The code violates C135 on tracks made of arcs, where the bounds are always 10 m (witness; holds exactly from a half width of 10 m). Proved for the other circuits."
  },
  {
   "property": "C136",
   "status": "partial",
   "theorems": [
    "Verif.Path.C136_filled",
    "Verif.Path.C136_opposite_pitch",
    "Verif.Path.C136_flat_partial",
    "Verif.Path.C136_false"
   ],
   "note": "The code violates C136 on circuits with pitch: the vertical direction of travel has the opposite sign to the rest of the library (witness). The constraints are characterised exactly, and C136 proved without pitch."
  },
  {
   "property": "C137",
   "status": "partial",
   "theorems": [
    "Verif.Path.C137_rotation",
    "Verif.Path.C137_closed",
    "Verif.Path.C137_open",
    "Verif.Path.C137_start_partial",
    "Verif.Path.C137_false"
   ],
   "note": "The code violates C137 on closed circuits with elevation: the closing element counts the rate of the heading only (witness). Proved for open circuits and flat closed ones; exact difference proved."
  },
  {
   "property": "C138",
   "status": "proved",
   "theorems": [
    "Verif.Path.C138_periodic",
    "Verif.Path.C138_undefined"
   ],
   "note": ""
  },
  {
   "property": "C139",
   "status": "partial",
   "theorems": [
    "Verif.Path.C139_centreline",
    "Verif.Path.C139_criterion",
    "Verif.Path.C139_false"
   ],
   "note": "The code violates C139: the criterion is (k - k^2 w + w'')^2, which decreases towards the inside of a corner while the curvature grows (witness). The criterion is characterised exactly."
  },
  {
   "property": "C14",
   "status": "partial",
   "theorems": [
    "Verif.Transcription.C14_false",
    "Verif.Transcription.C14_false_snapped_start",
    "Verif.Transcription.C14_increasing_partial"
   ],
   "note": "The code violates C14: interior arclengths are not checked, and snapping the first one to zero can pass the second (witnesses). Proved when the request is increasing and its second arclength positive."
  },
  {
   "property": "C140",
   "status": "partial",
   "theorems": [
    "Verif.Steady.C140_solve",
    "Verif.Steady.C140_lateral",
    "Verif.Steady.C140_longitudinal",
    "Verif.Steady.C140_numeric_partial",
    "Verif.Steady.C140_no_steps",
    "Verif.Steady.C140_false"
   ],
   "note": "Proved with automatic differentiation. The code violates C140 with numerical Jacobians for vehicles whose unit of acceleration is not 1 m/s2 (witness); proved for unit 1."
  },
  {
   "property": "C141",
   "status": "partial",
   "theorems": [
    "Verif.Steady.C141_diagram",
    "Verif.Steady.C141_no_points",
    "Verif.Steady.C141_range",
    "Verif.Steady.C141_order_partial",
    "Verif.Steady.C141_order_false"
   ],
   "note": "Number, accelerations and steadiness of the points proved. The order of the branches is only guaranteed up to 0.6 m/s2 (proved); with an optimiser that stops early they cross (witness)."
  },
  {
   "property": "C142",
   "status": "partial",
   "theorems": [
    "Verif.Steady.C142_lateral_partial",
    "Verif.Steady.C142_best",
    "Verif.Steady.C142_longitudinal_partial",
    "Verif.Steady.C142_false"
   ],
   "note": "The code violates C142 once its attempts are exhausted: a limit of the range is then reported as a solved maximum (witness). Proved: clear of the limits, or all enlargements used; and maximality over the initial range for an exact optimiser."
  },
  {
   "property": "C143",
   "status": "partial",
   "theorems": [
    "Verif.Steady.C143_rejected_partial",
    "Verif.Steady.C143_false"
   ],
   "note": "The code violates C143 for negative lateral accelerations, which are never rejected (witness). Proved: rejected exactly above the maximum."
  },
  {
   "property": "C144",
   "status": "partial",
   "theorems": [
    "Verif.Steady.C144_refinement_partial",
    "Verif.Steady.C144_false"
   ],
   "note": "The code violates C144 where an optimisation fails, because the next one starts from an earlier point (witness). Proved where the optimiser succeeds at first attempt."
  },
  {
   "property": "C145",
   "status": "proved",
   "theorems": [
    "Verif.Steady.C145_defined",
    "Verif.Steady.C145_numeric"
   ],
   "note": ""
  },
  {
   "property": "C146",
   "status": "partial",
   "theorems": [
    "Verif.LapFile.C146_round_trip_partial",
    "Verif.LapFile.C146_contents",
    "Verif.LapFile.C146_sizes",
    "Verif.LapFile.C146_false"
   ],
   "note": "The code violates C146 for the laptime, printed with six decimals, and the dissipations, which are not saved (witness). Everything else proved for laps of any size."
  },
  {
   "property": "C147",
   "status": "partial",
   "theorems": [
    "Verif.LapFile.C147_accepted",
    "Verif.LapFile.C147_rejected_partial",
    "Verif.LapFile.C147_false"
   ],
   "note": "The code violates C147 for inputs with fewer numbers than points: memory is read past their end (witness). Proved for all other damages."
  },
  {
   "property": "C148",
   "status": "proved",
   "theorems": [
    "Verif.LapFile.C148_defined_iff",
    "Verif.LapFile.C148_default"
   ],
   "note": ""
  },
  {
   "property": "C149",
   "status": "partial",
   "theorems": [
    "Verif.LapFile.C149_determined_partial",
    "Verif.LapFile.C149_saved_again_partial",
    "Verif.LapFile.C149_false"
   ],
   "note": "The code violates C149 for the flags of success and warm start and the number of iterations, which are not read (witness). Proved for the rest."
  },
  {
   "property": "C15",
   "status": "proved",
   "theorems": [
    "Verif.Transcription.C15_bounds_direct",
    "Verif.Transcription.C15_bounds_derivative"
   ],
   "note": ""
  },
  {
   "property": "C150",
   "status": "partial",
   "theorems": [
    "Verif.CircuitFile.C150_round_trip_partial",
    "Verif.CircuitFile.C150_exact",
    "Verif.CircuitFile.C150_false"
   ],
   "note": "The code violates C150 for options other than the weights, which are not saved, for weights and kerbs, printed with six decimals, for pitch and roll of circuits without elevation, and for the direction of open circuits and the local origin, which are not set (witness). Everything else proved for circuits of any size; equality proved where none of these matter."
  },
  {
   "property": "C151",
   "status": "partial",
   "theorems": [
    "Verif.CircuitFile.C151_saved_again_partial",
    "Verif.CircuitFile.C151_false"
   ],
   "note": "The code violates C151 without elevation: the circuit that is read has no pitch and saving it reads past the end (proved for every file of two dimensions). Proved with elevation."
  },
  {
   "property": "C152",
   "status": "partial",
   "theorems": [
    "Verif.CircuitFile.C152_accepted",
    "Verif.CircuitFile.C152_never_read",
    "Verif.CircuitFile.C152_rejected_partial",
    "Verif.CircuitFile.C152_false"
   ],
   "note": "The code violates C152 for vectors shorter than the number of points: memory is read past their end (witness). Proved for all other damages."
  },
  {
   "property": "C153",
   "status": "proved",
   "theorems": [
    "Verif.CircuitFile.C153_saving"
   ],
   "note": ""
  },
  {
   "property": "C154",
   "status": "proved",
   "theorems": [
    "Verif.CircuitFile.C154_same_track"
   ],
   "note": ""
  },
  {
   "property": "C155",
   "status": "partial",
   "theorems": [
    "Verif.Kart.C155_momentum",
    "Verif.Kart.C155_off_centre_false"
   ],
   "note": "Proved for a centre of mass over the origin of the road frame. The code violates C155 for any other (proved for all of them), which the parameters allow."
  },
  {
   "property": "C156",
   "status": "partial",
   "theorems": [
    "Verif.Kart.C156_moment_partial",
    "Verif.Kart.C156_moment_defect",
    "Verif.Kart.C156_moment_false"
   ],
   "note": "The code violates C156 whenever a turning kart is displaced vertically and slides: a term proportional to the displacement is missing. The missing term is given exactly, and C156 proved where it vanishes."
  },
  {
   "property": "C157",
   "status": "partial",
   "theorems": [
    "Verif.Kart.C157_determined_partial",
    "Verif.Kart.C157_determined_false"
   ],
   "note": "The code violates C157 for large products of inertia: the matrix is singular at a pitch within the limits (witness). Proved for small ones."
  },
  {
   "property": "C158",
   "status": "partial",
   "theorems": [
    "Verif.Kart.C158_wheel_motion_partial",
    "Verif.Kart.C158_wheel_motion_false"
   ],
   "note": "The code violates C158 while the steering changes: its rate is not counted (witness). Proved for constant steering."
  },
  {
   "property": "C159",
   "status": "partial",
   "theorems": [
    "Verif.Kart.C159_front_rolls",
    "Verif.Kart.C159_front_locked_false"
   ],
   "note": "Proved for tyres of the type \"only lateral\". Any other text, misspelt or not, gives locked front wheels (proved for all of them)."
  },
  {
   "property": "C16",
   "status": "proved",
   "theorems": [
    "Verif.Transcription.C16_time_per_metre_derivative"
   ],
   "note": ""
  },
  {
   "property": "C160",
   "status": "proved",
   "theorems": [
    "Verif.Kart.C160_steady_accelerations"
   ],
   "note": ""
  },
  {
   "property": "C161",
   "status": "partial",
   "theorems": [
    "Verif.Kart.C161_steady_held_partial",
    "Verif.Kart.C161_steady_held_false"
   ],
   "note": "The code violates C161 for the rear axle, for which there is no equation (witness). Proved for all other states."
  },
  {
   "property": "C162",
   "status": "proved",
   "theorems": [
    "Verif.Kart.C162_round_trip",
    "Verif.Kart.C162_all_set"
   ],
   "note": ""
  },
  {
   "property": "C163",
   "status": "partial",
   "theorems": [
    "Verif.Kart.C163_names",
    "Verif.Kart.C163_meaning",
    "Verif.Kart.C163_defaults",
    "Verif.Kart.C163_guess",
    "Verif.Kart.C163_steady_inside",
    "Verif.Kart.C163_direct_torque_false"
   ],
   "note": "The code violates C163 with direct torque: the torque is limited to 1 N m although its rate may be thousands. Everything else proved."
  },
  {
   "property": "C164",
   "status": "partial",
   "theorems": [
    "Verif.Kart.C164_constructor",
    "Verif.Kart.C164_change_track",
    "Verif.Kart.C164_kept_false"
   ],
   "note": "The code violates C164: a change of track that throws has replaced the track (proved for all tracks with elevation). The exceptions are proved."
  },
  {
   "property": "C165",
   "status": "partial",
   "theorems": [
    "Verif.Kart.C165_acceleration_partial",
    "Verif.Kart.C165_acceleration_false"
   ],
   "note": "The code violates C165 for every kart that turns and moves. Proved for karts that do not turn."
  },
  {
   "property": "C166",
   "status": "proved",
   "theorems": [
    "Verif.Kart.C166_states",
    "Verif.Kart.C166_recovered"
   ],
   "note": ""
  },
  {
   "property": "C167",
   "status": "proved",
   "theorems": [
    "Verif.Kart.C167_slips"
   ],
   "note": ""
  },
  {
   "property": "C168",
   "status": "partial",
   "theorems": [
    "Verif.Kart.C168_mirror_partial",
    "Verif.Kart.C168_goes_straight",
    "Verif.Kart.C168_mirror_false"
   ],
   "note": "The code violates C168 for front axles whose steering does not lift one wheel as much as it lowers the other: the deformation is computed from one coefficient (witness). Proved for the others."
  },
  {
   "property": "C169",
   "status": "proved",
   "theorems": [
    "Verif.Kart.C169_same_motion",
    "Verif.Kart.C169_heading"
   ],
   "note": ""
  },
  {
   "property": "C17",
   "status": "proved",
   "theorems": [
    "Verif.Transcription.C17_laptime_derivative"
   ],
   "note": "The node sensitivities themselves come from the solver's sensitivity analysis (not modelled): they are assumed to be the derivatives. Hypotheses: accepted request, vehicle with consistent compile-time sizes, hypermeshes that increase and start at or before the mesh (see C20)."
  },
  {
   "property": "C170",
   "status": "proved",
   "theorems": [
    "Verif.LapOptions.C170_options_take_their_value",
    "Verif.LapOptions.C170_outputs",
    "Verif.LapOptions.C170_no_options",
    "Verif.LapOptions.C170_first"
   ],
   "note": ""
  },
  {
   "property": "C171",
   "status": "partial",
   "theorems": [
    "Verif.LapOptions.C171_initial_speed_partial",
    "Verif.LapOptions.C171_initial_speed_false",
    "Verif.LapOptions.C171_steady_state_speed_refused"
   ],
   "note": "The code violates C171: the initial speed is ignored unless an element steady_state_speed is present too (proved for every document with it alone). Proved for documents with both."
  },
  {
   "property": "C172",
   "status": "proved",
   "theorems": [
    "Verif.LapOptions.C172_control_variables",
    "Verif.LapOptions.C172_known_types",
    "Verif.LapOptions.C172_unknown_refused",
    "Verif.LapOptions.C172_f1_defaults",
    "Verif.LapOptions.C172_kart_defaults",
    "Verif.LapOptions.C172_attribute"
   ],
   "note": ""
  },
  {
   "property": "C173",
   "status": "proved",
   "theorems": [
    "Verif.LapOptions.C173_variable_bounds",
    "Verif.LapOptions.C173_integral_constraints",
    "Verif.LapOptions.C173_bounds_are_used"
   ],
   "note": ""
  },
  {
   "property": "C174",
   "status": "partial",
   "theorems": [
    "Verif.LapOptions.C174_accepted_iff_partial",
    "Verif.LapOptions.C174_documented_false"
   ],
   "note": "The code violates C174: bounds of variables written as documented are always refused (proved for all names and values). What is accepted is characterised exactly."
  },
  {
   "property": "C175",
   "status": "partial",
   "theorems": [
    "Verif.LapOptions.C175_initial_condition_partial",
    "Verif.LapOptions.C175_short_false",
    "Verif.LapOptions.C175_long_undefined",
    "Verif.LapOptions.C175_required"
   ],
   "note": "The code violates C175: vectors that are too short leave the rest to what was in memory and longer ones are written past the end (witnesses). Proved: an initial condition is required and its entries are the first ones."
  },
  {
   "property": "C176",
   "status": "proved",
   "theorems": [
    "Verif.LapOptions.C176_as_configured",
    "Verif.LapOptions.C176_checks_pass_iff",
    "Verif.LapOptions.C176_starts_from_steady_state"
   ],
   "note": "The second control of the kart starts from zero instead."
  },
  {
   "property": "C177",
   "status": "partial",
   "theorems": [
    "Verif.LapOptions.C177_open_start_partial",
    "Verif.LapOptions.C177_open_start_false",
    "Verif.LapOptions.C177_no_points_undefined"
   ],
   "note": "The code violates C177 for controls that are constant or on a hypermesh, whose given value is ignored (witness), and the behaviour is undefined without points. Proved for inputs and full-mesh controls."
  },
  {
   "property": "C178",
   "status": "proved",
   "theorems": [
    "Verif.LapOptions.C178_vectors",
    "Verif.LapOptions.C178_unknown_refused"
   ],
   "note": ""
  },
  {
   "property": "C179",
   "status": "partial",
   "theorems": [
    "Verif.LapOptions.C179_warm_start_partial",
    "Verif.LapOptions.C179_needs_saved_lap",
    "Verif.LapOptions.C179_arclength_false",
    "Verif.LapOptions.C179_more_points"
   ],
   "note": "The code violates C179: the points, controls and kind of lap are those saved, while the returned arclength is the given one (witness); with more points than saved the result is read past the end. The request that is solved is characterised exactly."
  },
  {
   "property": "C18",
   "status": "partial",
   "theorems": [
    "Verif.Transcription.C18_false",
    "Verif.Transcription.C18_actual_controls",
    "Verif.Transcription.C18_actual_controls_derivative",
    "Verif.Transcription.C18_inputs_partial",
    "Verif.Transcription.C18_inputs_derivative_partial"
   ],
   "note": "The code violates C18 for controls: it clears the first control at all nodes instead of all controls at the first node (witness, and what is exported). Proved for the inputs."
  },
  {
   "property": "C180",
   "status": "partial",
   "theorems": [
    "Verif.LapOptions.C180_sensitivity_partial",
    "Verif.LapOptions.C180_sensitivity_false"
   ],
   "note": "The code violates C180 for all variables except the velocity and the time, whose derivatives are returned as zero (proved for all of them). Proved for those two."
  },
  {
   "property": "C181",
   "status": "proved",
   "theorems": [
    "Verif.Kart.C181_axle_energy",
    "Verif.Kart.C181_engine_power"
   ],
   "note": ""
  },
  {
   "property": "C182",
   "status": "proved",
   "theorems": [
    "Verif.Kart.C182_air"
   ],
   "note": ""
  },
  {
   "property": "C183",
   "status": "proved",
   "theorems": [
    "Verif.CircuitOptions.C183_names",
    "Verif.CircuitOptions.C183_weights",
    "Verif.CircuitOptions.C183_accepted"
   ],
   "note": ""
  },
  {
   "property": "C184",
   "status": "partial",
   "theorems": [
    "Verif.CircuitOptions.C184_closed_partial",
    "Verif.CircuitOptions.C184_open_false"
   ],
   "note": "The code violates C184: no options with an open circuit give one, whatever the files (proved for every document). Proved for closed circuits."
  },
  {
   "property": "C185",
   "status": "partial",
   "theorems": [
    "Verif.CircuitOptions.C185_mesh_partial",
    "Verif.CircuitOptions.C185_negative_false"
   ],
   "note": "The code violates C185: -k elements are accepted as 2^64 - k (proved for every k). Proved for numbers that are not negative and for refined meshes."
  },
  {
   "property": "C186",
   "status": "partial",
   "theorems": [
    "Verif.CircuitOptions.C186_stored_partial",
    "Verif.CircuitOptions.C186_padded_false",
    "Verif.CircuitOptions.C186_overrun_false",
    "Verif.CircuitOptions.C186_file"
   ],
   "note": "The code violates C186 for the measured boundaries: with fewer points than the circuit they are filled with zeros, with more they are written past the end (proved for all such circuits). Proved when the numbers of points agree."
  },
  {
   "property": "C187",
   "status": "partial",
   "theorems": [
    "Verif.CircuitOptions.C187_failure_partial",
    "Verif.CircuitOptions.C187_not_computed",
    "Verif.CircuitOptions.C187_failure_false"
   ],
   "note": "The code violates C187: when an output name is taken the track has already been inserted (proved). Proved when no outputs and no file are asked for, and when the options are refused or the circuit cannot be computed."
  },
  {
   "property": "C188",
   "status": "proved",
   "theorems": [
    "Verif.Transcription.C188_no_memory"
   ],
   "note": ""
  },
  {
   "property": "C189",
   "status": "proved",
   "theorems": [
    "Verif.Transcription.C189_set_up",
    "Verif.Transcription.C189_refused",
    "Verif.Transcription.C189_returned"
   ],
   "note": "In the derivative form for vehicles that bound the rates of the controls and requests without constant controls (C04, C103 cover the rest)."
  },
  {
   "property": "C19",
   "status": "proved",
   "theorems": [
    "Verif.Control.C19_validation_accepts_iff",
    "Verif.Control.C19_validation_idempotent",
    "Verif.Control.C19_rejected_effect",
    "Verif.Control.C19_factories_consistent"
   ],
   "note": "A rejected validation has already reset the dissipation of the controls before the offending one (C19_rejected_effect)."
  },
  {
   "property": "C190",
   "status": "proved",
   "theorems": [
    "Verif.Transcription.C190_own_times",
    "Verif.Transcription.C190_lap_obeys"
   ],
   "note": "The integral quantities are the sums of the code (codedIntegral); C10 to C12 say when these are the true integrals."
  },
  {
   "property": "C191",
   "status": "proved",
   "theorems": [
    "Verif.Transcription.C191_no_better_lap",
    "Verif.Transcription.C191_fastest"
   ],
   "note": "The smoothing penalty of the derivative form is the one of the code (see C08)."
  },
  {
   "property": "C192",
   "status": "proved",
   "theorems": [
    "Verif.Transcription.C192_warm_start"
   ],
   "note": ""
  },
  {
   "property": "C193",
   "status": "partial",
   "theorems": [
    "Verif.LapVehicles.C193_f1_partial",
    "Verif.LapVehicles.C193_f1_false",
    "Verif.LapVehicles.C193_kart"
   ],
   "note": "The code violates C193: a lap of the F1 car in derivative form with the brake bias given at every node has undefined behaviour (proved for every such request). Proved for the other requests and for the kart; in derivative form without constant controls (see C04)."
  },
  {
   "property": "C194",
   "status": "proved",
   "theorems": [
    "Verif.LapVehicles.C194_f1_lap"
   ],
   "note": "On flat tracks; the optimiser is assumed to be right about the bounds and constraints when it reports success."
  },
  {
   "property": "C195",
   "status": "proved",
   "theorems": [
    "Verif.LapVehicles.C195_kart_lap"
   ],
   "note": "On flat tracks; the optimiser is assumed to be right about the bounds and constraints when it reports success. Roll, pitch and yaw accelerations are those the kart computes (C156, C157)."
  },
  {
   "property": "C196",
   "status": "proved",
   "theorems": [
    "Verif.SteadyVehicles.C196_f1"
   ],
   "note": ""
  },
  {
   "property": "C197",
   "status": "proved",
   "theorems": [
    "Verif.SteadyVehicles.C197_kart",
    "Verif.SteadyVehicles.C197_numeric"
   ],
   "note": ""
  },
  {
   "property": "C198",
   "status": "partial",
   "theorems": [
    "Verif.SteadyVehicles.C198_f1_partial",
    "Verif.SteadyVehicles.C198_kart_partial",
    "Verif.SteadyVehicles.C198_failure",
    "Verif.SteadyVehicles.C198_short",
    "Verif.SteadyVehicles.C198_false"
   ],
   "note": "Proved for the names of existing vehicles, and failure leaves the arrays unchanged. The code violates C198 for other names: the command returns normally (C198_false)."
  },
  {
   "property": "C199",
   "status": "partial",
   "theorems": [
    "Verif.SteadyVehicles.C199_f1_partial",
    "Verif.SteadyVehicles.C199_kart_partial",
    "Verif.SteadyVehicles.C199_defined",
    "Verif.SteadyVehicles.C199_false",
    "Verif.SteadyVehicles.C199_unknown_false"
   ],
   "note": "Proved: what is written, and that it belongs to steady states where the solver succeeded. The code violates C199: success of the solver is not checked (C199_false: a solver that never succeeds fills the arrays), and unknown names return normally."
  },
  {
   "property": "C20",
   "status": "proved",
   "theorems": [
    "Verif.Control.C20_piecewise_constant",
    "Verif.Control.C20_constant_between_checkpoints",
    "Verif.Control.C20_empty_hypermesh_ub",
    "Verif.Control.C20_unsorted_hypermesh_accepted",
    "Verif.Control.C20_value_and_derivative_ub"
   ],
   "note": "Proved for increasing hypermeshes. Disagreements: validation accepts empty and unsorted hypermeshes (undefined behaviour / wrong value); the value-and-derivative variant is undefined behaviour on validated input."
  },
  {
   "property": "C200",
   "status": "proved",
   "theorems": [
    "Verif.Fit.C200_cross_sections",
    "Verif.Fit.C200_halfway",
    "Verif.Fit.C200_fuel"
   ],
   "note": ""
  },
  {
   "property": "C201",
   "status": "proved",
   "theorems": [
    "Verif.Fit.C201_arclength"
   ],
   "note": ""
  },
  {
   "property": "C202",
   "status": "proved",
   "theorems": [
    "Verif.Fit.C202_constructor",
    "Verif.Fit.C202_outcome"
   ],
   "note": "C202_constructor has the condition that the middle line has no repeated consecutive points and is long against the sizes asked for."
  },
  {
   "property": "C203",
   "status": "proved",
   "theorems": [
    "Verif.Fit.C203_track",
    "Verif.Fit.C203_side"
   ],
   "note": "The optimiser is assumed to be right about the bounds and constraints when it reports success."
  },
  {
   "property": "C204",
   "status": "partial",
   "theorems": [
    "Verif.Fit.C204_optimal_partial"
   ],
   "note": "Proved for flat circuits and for open ones. Missing: closed circuits with elevation, where the closing element of the cost lacks two terms (C117). For open circuits the distances are those to the closed boundaries (C205)."
  },
  {
   "property": "C205",
   "status": "partial",
   "theorems": [
    "Verif.Fit.C205_closed_partial",
    "Verif.Fit.C205_false"
   ],
   "note": "The code violates C205 for open circuits: the searches treat the boundaries as closed; a track away from both boundaries has cost 0 (witness, for every search that finds closest points). Proved for closed circuits."
  },
  {
   "property": "C206",
   "status": "proved",
   "theorems": [
    "Verif.Fit.C206_guess",
    "Verif.Fit.C206_heading"
   ],
   "note": ""
  },
  {
   "property": "C207",
   "status": "proved",
   "theorems": [
    "Verif.LapVehicles.C207_energies"
   ],
   "note": "On any track, engine given by its maximum power, open laps or sigma 1/2."
  },
  {
   "property": "C208",
   "status": "proved",
   "theorems": [
    "Verif.Steady.C208_longitudinal",
    "Verif.Steady.C208_diagram",
    "Verif.Steady.C208_numeric"
   ],
   "note": "Within the ranges the code searches, which the theorems state; that the ranges do limit the result is C142."
  },
  {
   "property": "C209",
   "status": "proved",
   "theorems": [
    "Verif.Fit.C209_errors"
   ],
   "note": ""
  },
  {
   "property": "C21",
   "status": "proved",
   "theorems": [
    "Verif.Control.C21_control_array",
    "Verif.Control.C21_control_array_and_derivative"
   ],
   "note": ""
  },
  {
   "property": "C210",
   "status": "proved",
   "theorems": [
    "Verif.LapVehicles.C210_f1_lap_elevated"
   ],
   "note": "Up to the tolerances of the optimiser, assumed right about bounds and constraints when it reports success. The inertia matrix enters by its diagonal, as in the code."
  },
  {
   "property": "C211",
   "status": "partial",
   "theorems": [
    "Verif.LapVehicles.C211_shared_partial",
    "Verif.LapVehicles.C211_shared_false"
   ],
   "note": "Proved on flat tracks, and with elevation when sigma is 1. False on tracks with elevation otherwise: all equations are then classified as differential, so the algebraic roll balance is only imposed as a weighted mean over each element (witness: a converged lap that misses its share by a tenth of the weight)."
  },
  {
   "property": "C212",
   "status": "proved",
   "theorems": [
    "Verif.Propagation.C212_f1_track",
    "Verif.Propagation.C212_f1_plane",
    "Verif.Propagation.C212_kart_track",
    "Verif.Propagation.C212_kart_plane"
   ],
   "note": "For every time step of lion that satisfies its equations when it returns (Solves). Options in a document with root `options` (see C213). Along a track while the vehicle does not stand still against it."
  },
  {
   "property": "C213",
   "status": "partial",
   "theorems": [
    "Verif.Propagation.C213_failure",
    "Verif.Propagation.C213_short",
    "Verif.Propagation.C213_outcome",
    "Verif.Propagation.C213_options_failure",
    "Verif.Propagation.C213_no_track",
    "Verif.Propagation.C213_options_partial",
    "Verif.Propagation.C213_false",
    "Verif.Propagation.C213_options_false"
   ],
   "note": "Proved for existing vehicles and options under the root `options`; arrays that are too short are undefined. The code violates C213 for unknown vehicles (returns normally) and for options under another root (silently ignored)."
  },
  {
   "property": "C214",
   "status": "partial",
   "theorems": [
    "Verif.Propagation.C214_same",
    "Verif.Propagation.C214_change",
    "Verif.Propagation.C214_propagate",
    "Verif.Propagation.C214_false"
   ],
   "note": "Proved except that the code does not report an unknown vehicle (C214_false)."
  },
  {
   "property": "C215",
   "status": "proved",
   "theorems": [
    "Verif.Propagation.C215_stays",
    "Verif.Propagation.C215_output"
   ],
   "note": ""
  },
  {
   "property": "C216",
   "status": "proved",
   "theorems": [
    "Verif.Python.C216_vector",
    "Verif.Python.C216_scalar",
    "Verif.Python.C216_taken",
    "Verif.Python.C216_missing",
    "Verif.Python.C216_false_null"
   ],
   "note": "Names with null characters are cut (C216_false_null) and excluded by the quantifier."
  },
  {
   "property": "C217",
   "status": "proved",
   "theorems": [
    "Verif.Python.C217_download_variables",
    "Verif.Python.C217_first_failure"
   ],
   "note": "Stored vectors have fewer than 2^31 numbers."
  },
  {
   "property": "C218",
   "status": "partial",
   "theorems": [
    "Verif.Python.C218_all_variables_partial",
    "Verif.Python.C218_false_listed",
    "Verif.Python.C218_false_raised",
    "Verif.Python.C218_false_empty_prefix"
   ],
   "note": "Proved when all the variables are asked for with a prefix, except that the lap time and the integral quantities are not among the names returned. The code violates C218 for a list of variables (an empty list is returned) and without output_variables (an exception after the lap was computed)."
  },
  {
   "property": "C219",
   "status": "proved",
   "theorems": [
    "Verif.Python.C219_outputs",
    "Verif.Python.C219_types",
    "Verif.Python.C219_buffers",
    "Verif.Python.C219_python"
   ],
   "note": "Buffers of at least one byte; with none the call is undefined (C62)."
  },
  {
   "property": "C22",
   "status": "proved",
   "theorems": [
    "Verif.Control.C22_statistics",
    "Verif.Control.C22_clear_keeps_structure"
   ],
   "note": ""
  },
  {
   "property": "C220",
   "status": "partial",
   "theorems": [
    "Verif.Python.C220_diagram_partial",
    "Verif.Python.C220_returns",
    "Verif.Python.C220_false"
   ],
   "note": "Proved for existing vehicles. The code violates C220 for unknown ones: zeros are returned."
  },
  {
   "property": "C221",
   "status": "proved",
   "theorems": [
    "Verif.Python.C221_track"
   ],
   "note": ""
  },
  {
   "property": "C222",
   "status": "proved",
   "theorems": [
    "Verif.Outputs.C222_f1",
    "Verif.Outputs.C222_kart",
    "Verif.Outputs.C222_unknown",
    "Verif.Outputs.C222_short"
   ],
   "note": "Karts on flat tracks. The slope and other parameters of the vehicle may vary along the track."
  },
  {
   "property": "C223",
   "status": "proved",
   "theorems": [
    "Verif.Outputs.C223_f1",
    "Verif.Outputs.C223_f1_flat",
    "Verif.Outputs.C223_kart",
    "Verif.Outputs.C223_kart_plane"
   ],
   "note": "For the kart the velocity of the point of the road is stated in the plane; its tyres have the height of the suspension."
  },
  {
   "property": "C224",
   "status": "proved",
   "theorems": [
    "Verif.Outputs.C224_f1",
    "Verif.Outputs.C224_f1_flat",
    "Verif.Outputs.C224_kart"
   ],
   "note": "On roads with elevation the vertical component of the drag is not among the outputs; C224_f1 then has the aerodynamic force of the model."
  },
  {
   "property": "C225",
   "status": "proved",
   "theorems": [
    "Verif.Outputs.C225_f1",
    "Verif.Outputs.C225_kart"
   ],
   "note": ""
  },
  {
   "property": "C226",
   "status": "partial",
   "theorems": [
    "Verif.Outputs.C226_heading_partial",
    "Verif.Outputs.C226_heading_kart",
    "Verif.Outputs.C226_heading_false"
   ],
   "note": "Proved on flat roads. False on banked roads: heading and yaw are added although the heading is measured in the plane of the road."
  },
  {
   "property": "C227",
   "status": "proved",
   "theorems": [
    "Verif.Outputs.C227_moves",
    "Verif.Outputs.C227_flat"
   ],
   "note": "F1 car. The wheel centres are constant in the car, so their reported position is taken to the road plane."
  },
  {
   "property": "C228",
   "status": "proved",
   "theorems": [
    "Verif.Outputs.C228_f1",
    "Verif.Outputs.C228_f1_flat",
    "Verif.Outputs.C228_kart"
   ],
   "note": ""
  },
  {
   "property": "C229",
   "status": "partial",
   "theorems": [
    "Verif.Outputs.C229_names_partial",
    "Verif.Outputs.C229_errors",
    "Verif.Outputs.C229_overrun",
    "Verif.Outputs.C229_names_false"
   ],
   "note": "Proved when the buffers are large enough. The code violates C229: the size of the buffers is not used, names that do not fit are written past the end."
  },
  {
   "property": "C23",
   "status": "proved",
   "theorems": [
    "Verif.Parameter.C23_creation_accepted_iff"
   ],
   "note": ""
  },
  {
   "property": "C230",
   "status": "proved",
   "theorems": [
    "Verif.Registry.C230_create"
   ],
   "note": "A vector given with more elements than numbers is read out of bounds (outcome ub)."
  },
  {
   "property": "C231",
   "status": "proved",
   "theorems": [
    "Verif.Registry.C231_read"
   ],
   "note": "For registries in which names are unique (C28)."
  },
  {
   "property": "C232",
   "status": "proved",
   "theorems": [
    "Verif.Registry.C232_f1",
    "Verif.Registry.C232_kart",
    "Verif.Registry.C232_track"
   ],
   "note": "vehicle_set_parameter on karts does nothing and is part of C233."
  },
  {
   "property": "C233",
   "status": "partial",
   "theorems": [
    "Verif.Registry.C233_unknown_partial",
    "Verif.Registry.C233_unknown_false"
   ],
   "note": "Nothing changes, but the code reports success for set_parameter, steady states, diagrams, change of track and laps of unknown vehicles."
  },
  {
   "property": "C234",
   "status": "proved",
   "theorems": [
    "Verif.Registry.C234_call",
    "Verif.Registry.C234_origin"
   ],
   "note": ""
  },
  {
   "property": "C235",
   "status": "proved",
   "theorems": [
    "Verif.Outputs.C235_f1",
    "Verif.Outputs.C235_kart"
   ],
   "note": "F1 car on flat roads; the kart model is only used on flat ones."
  },
  {
   "property": "C236",
   "status": "partial",
   "theorems": [
    "Verif.Outputs.C236_f1_partial",
    "Verif.Outputs.C236_kart_partial",
    "Verif.Outputs.C236_straight",
    "Verif.Outputs.C236_indicator_false"
   ],
   "note": "Proved for all outputs of a vehicle that turns. The code violates C236 for the understeer indicator of a vehicle that goes straight with steered wheels (C236_indicator_false). For the kart the equations of the rotation must determine it and the steering must lift one wheel as much as it lowers the other (as in C168)."
  },
  {
   "property": "C237",
   "status": "proved",
   "theorems": [
    "Verif.Frames.C237_values",
    "Verif.Frames.C237_apart"
   ],
   "note": "The class Frame belongs to the library lion: it is assumed to be copied member by member, and set_parent to store the address."
  },
  {
   "property": "C238",
   "status": "partial",
   "theorems": [
    "Verif.Frames.C238_false"
   ],
   "note": "The code violates C238: the implicit copy constructor leaves the axle in the inertial frame of the original."
  },
  {
   "property": "C239",
   "status": "proved",
   "theorems": [
    "Verif.Path.C239_outcome",
    "Verif.Path.C239_rejected",
    "Verif.Path.C239_on_track",
    "Verif.Path.C239_arcs"
   ],
   "note": "The solver is a parameter; results longer than the starting point (impossible with Ipopt) are excluded. The direction of travel has the sign of pitch of C136. On a track made of arcs a failure is only reported by the flag."
  },
  {
   "property": "C24",
   "status": "proved",
   "theorems": [
    "Verif.Parameter.C24_interpolates",
    "Verif.Parameter.C24_total"
   ],
   "note": ""
  },
  {
   "property": "C240",
   "status": "partial",
   "theorems": [
    "Verif.Path.C240_open_partial",
    "Verif.Path.C240_closed_partial",
    "Verif.Path.C240_false",
    "Verif.Path.C240_false_always"
   ],
   "note": "Proved for open circuits, and for flat paths on closed ones. On closed circuits with slopes or banking the cost leaves out part of the closing element (C137_false), and it is false: on a banked circle every solver that finds minima returns a path that turns more than another admissible one (C240_false, C240_false_always)."
  },
  {
   "property": "C241",
   "status": "partial",
   "theorems": [
    "Verif.Path.C241_saved_partial",
    "Verif.Path.C241_false"
   ],
   "note": "The code violates C241 for tracks made of arcs: the lists that are written are empty and the loop bound size()-1 wraps."
  },
  {
   "property": "C242",
   "status": "proved",
   "theorems": [
    "Verif.PoweredAxle.C242_load",
    "Verif.PoweredAxle.C242_motion",
    "Verif.PoweredAxle.C242_energy",
    "Verif.PoweredAxle.C242_everywhere"
   ],
   "note": "The load of the tyres passes through the smoothed positive part of the tyre model."
  },
  {
   "property": "C243",
   "status": "proved",
   "theorems": [
    "Verif.Track.C243_samples"
   ],
   "note": "The fit of the polynomials to the samples belongs to the lion library and is not modelled."
  },
  {
   "property": "C244",
   "status": "partial",
   "theorems": [
    "Verif.Track.C244_follows_partial",
    "Verif.Track.C244_false",
    "Verif.Track.C244_false_turn",
    "Verif.Track.C244_false_closed"
   ],
   "note": "Proved while the direction stays within half a turn of the first axis. False otherwise: the headings are those of atan2 and are not unwrapped, so they jump by a full turn where the curve points backwards, and are equal at both ends of every curve that closes (C244_false_closed)."
  },
  {
   "property": "C245",
   "status": "partial",
   "theorems": [
    "Verif.Outputs.C245_plane",
    "Verif.Outputs.C245_moves_partial",
    "Verif.Outputs.C245_false"
   ],
   "note": "In the plane without restriction (C245_plane). Vertically while the steering of the wheel does not change; false for a front wheel while it is steered, because the reported velocity leaves out the rate at which the steering lifts the wheel (C245_false)."
  },
  {
   "property": "C246",
   "status": "proved",
   "theorems": [
    "Verif.LapOutputs.C246_f1",
    "Verif.LapOutputs.C246_kart"
   ],
   "note": "With the parameters and the track that the vehicle had when the lap was computed."
  },
  {
   "property": "C247",
   "status": "proved",
   "theorems": [
    "Verif.LapVehicles.C247_lap",
    "Verif.LapVehicles.C247_best",
    "Verif.LapVehicles.C247_laptime"
   ],
   "note": "The optimiser is a parameter: C247_best and C247_laptime assume that it returns a global minimum when it reports success."
  },
  {
   "property": "C248",
   "status": "partial",
   "theorems": [
    "Verif.LapVehicles.C248_lap_partial",
    "Verif.LapVehicles.C248_best_partial",
    "Verif.LapVehicles.C248_laptime_partial",
    "Verif.LapVehicles.C248_equations_false"
   ],
   "note": "Holds for karts whose steering lifts one front wheel as much as it lowers the other and whose rotation equations can be solved along the lap. For other karts it is false (C248_equations_false): the deformation of the chassis is computed with the lift of the right wheel only, so that the vertical acceleration of the mirror image differs (as in C168)."
  },
  {
   "property": "C249",
   "status": "partial",
   "theorems": [
    "Verif.Path.C249_edges_partial",
    "Verif.Path.C249_best_partial",
    "Verif.Path.C249_false"
   ],
   "note": "The bounds of the displacements are 10 m to either side whatever the width of the track, and the criterion is not the curvature (C139): on a circle the computed path is 10 m inside of the centreline, outside of the edges of a narrower track, and it turns more tightly than the centreline. Proved: within 10 m, hence within the edges of tracks at least 20 m wide, and optimal for the criterion of the code."
  },
  {
   "property": "C25",
   "status": "partial",
   "theorems": [
    "Verif.Parameter.C25_false_outside_mesh",
    "Verif.Parameter.C25_outside_partial",
    "Verif.Parameter.C25_continuous_partial"
   ],
   "note": "The code violates C25: outside the mesh it returns the first/last value of the value list, not the value of the first/last checkpoint. Proved under the hypothesis that these coincide."
  },
  {
   "property": "C250",
   "status": "partial",
   "theorems": [
    "Verif.Transcription.C250_lap_partial",
    "Verif.Transcription.C250_best_partial",
    "Verif.Transcription.C250_laptime_partial",
    "Verif.Transcription.C250_false_penalty",
    "Verif.Transcription.C250_false_integral"
   ],
   "note": "the same laps obey, last and cost the same from every node, and so the best laps do; the full claim fails in the code for rates with a smoothing penalty (C08) and for integral constraints with weights other than 1/2 (C11), both shown by witnesses; controls on a mesh of their own are left out, they are not periodic"
  },
  {
   "property": "C251",
   "status": "proved",
   "theorems": [
    "Verif.Transcription.C251_obeys",
    "Verif.Transcription.C251_looser",
    "Verif.Transcription.C251_laptime"
   ],
   "note": ""
  },
  {
   "property": "C252",
   "status": "proved",
   "theorems": [
    "Verif.Transcription.C252_guess",
    "Verif.Transcription.C252_laptime"
   ],
   "note": ""
  },
  {
   "property": "C253",
   "status": "proved",
   "theorems": [
    "Verif.Transcription.C253_obeys",
    "Verif.Transcription.C253_freer",
    "Verif.Transcription.C253_laptime"
   ],
   "note": ""
  },
  {
   "property": "C254",
   "status": "proved",
   "theorems": [
    "Verif.Transcription.C254_smoother",
    "Verif.Transcription.C254_laptime"
   ],
   "note": ""
  },
  {
   "property": "C255",
   "status": "proved",
   "theorems": [
    "Verif.LapVehicles.C255_f1",
    "Verif.LapVehicles.C255_kart",
    "Verif.LapVehicles.C255_outputs_f1",
    "Verif.LapVehicles.C255_outputs_kart"
   ],
   "note": ""
  },
  {
   "property": "C256",
   "status": "partial",
   "theorems": [
    "Verif.LapVehicles.C256_track_partial",
    "Verif.LapVehicles.C256_false"
   ],
   "note": "everything holds except elevation under vertical moves: the track counts as elevated when its height differs from zero, so a flat circuit one metre higher is elevated, the kart rejects it and the F1 car uses other equations (C256_false)"
  },
  {
   "property": "C257",
   "status": "proved",
   "theorems": [
    "Verif.Fit.C257_east"
   ],
   "note": ""
  },
  {
   "property": "C258",
   "status": "partial",
   "theorems": [
    "Verif.Fit.C258_ends_partial",
    "Verif.Fit.C258_false"
   ],
   "note": "the ends are the closest points on the map, where a degree of longitude is as long as one of latitude; the trimming searches in degrees and not in metres, so that at 60 degrees north a boundary of a road that runs north-east does not begin at the point closest to the start on the ground (C258_false)"
  },
  {
   "property": "C259",
   "status": "proved",
   "theorems": [
    "Verif.LapVehicles.C259_f1",
    "Verif.LapVehicles.C259_kart"
   ],
   "note": ""
  },
  {
   "property": "C26",
   "status": "proved",
   "theorems": [
    "Verif.Parameter.C26_set_then_get",
    "Verif.Parameter.C26_get_then_set",
    "Verif.Parameter.C26_aliases_parallel"
   ],
   "note": ""
  },
  {
   "property": "C260",
   "status": "proved",
   "theorems": [
    "Verif.Routing.C260_last",
    "Verif.Routing.C260_order",
    "Verif.Routing.C260_file"
   ],
   "note": ""
  },
  {
   "property": "C261",
   "status": "proved",
   "theorems": [
    "Verif.Routing.C261_by_hand"
   ],
   "note": ""
  },
  {
   "property": "C262",
   "status": "proved",
   "theorems": [
    "Verif.LapOptions.C262_lap",
    "Verif.LapOptions.C262_lap_errors",
    "Verif.LapOptions.C262_circuit",
    "Verif.LapOptions.C262_step"
   ],
   "note": ""
  },
  {
   "property": "C263",
   "status": "proved",
   "theorems": [
    "Verif.LapOptions.C263_lap",
    "Verif.LapOptions.C263_circuit",
    "Verif.LapOptions.C263_step",
    "Verif.LapOptions.C263_repeated"
   ],
   "note": ""
  },
  {
   "property": "C264",
   "status": "proved",
   "theorems": [
    "Verif.Path.C264_paths",
    "Verif.Path.C264_curvature",
    "Verif.Path.C264_least"
   ],
   "note": ""
  },
  {
   "property": "C265",
   "status": "proved",
   "theorems": [
    "Verif.Path.C265_paths",
    "Verif.Path.C265_curvature",
    "Verif.Path.C265_least"
   ],
   "note": ""
  },
  {
   "property": "C266",
   "status": "proved",
   "theorems": [
    "Verif.Fit.C266_tracks",
    "Verif.Fit.C266_misfit",
    "Verif.Fit.C266_moved"
   ],
   "note": "For two fits: circuits without elevation and open ones, as in C204. find_closest_point is assumed to find the closest point, the optimiser to return feasible minima."
  },
  {
   "property": "C267",
   "status": "proved",
   "theorems": [
    "Verif.Fit.C267_guess",
    "Verif.Fit.C267_turned"
   ],
   "note": "wrap_to_pi is assumed to give the same result for angles that differ by whole turns."
  },
  {
   "property": "C268",
   "status": "proved",
   "theorems": [
    "Verif.Fit.C268_tracks",
    "Verif.Fit.C268_misfit"
   ],
   "note": ""
  },
  {
   "property": "C269",
   "status": "proved",
   "theorems": [
    "Verif.Fit.C269_guess",
    "Verif.Fit.C269_mirrored"
   ],
   "note": "wrap_to_pi is assumed to return the same angle within half a turn, find_closest_point to find the closest point, the optimiser to return feasible minima."
  },
  {
   "property": "C27",
   "status": "proved",
   "theorems": [
    "Verif.Parameter.C27_paths_unique",
    "Verif.Parameter.C27_declaration_atomic",
    "Verif.Parameter.C27_constant_declaration_atomic"
   ],
   "note": ""
  },
  {
   "property": "C270",
   "status": "proved",
   "theorems": [
    "Verif.Fit.C270_estimate",
    "Verif.Fit.C270_fit"
   ],
   "note": "find_closest_point and the polynomial of degree one are assumed to commute with turning and moving; a search by projection that does is given. The equality of the fits has the hypotheses of C267."
  },
  {
   "property": "C271",
   "status": "proved",
   "theorems": [
    "Verif.Fit.C271_search"
   ],
   "note": "Both searches are assumed to find the distance to the line; wrap_to_pi, the Euler angles and the optimiser are the same on both sides."
  },
  {
   "property": "C272",
   "status": "partial",
   "theorems": [
    "Verif.Fit.C272_estimate_partial",
    "Verif.Fit.C272_false"
   ],
   "note": "The code violates C272: the nodes are placed along the right boundary, and the left one only supplies closest points (witness: a left boundary of 20 m and a right one of 10 m give an estimate of 10 m, their mirror image one of 15 m). Proved for circuits whose cross-sections placed along either boundary are the same."
  },
  {
   "property": "C273",
   "status": "partial",
   "theorems": [
    "Verif.Trim.C273_trimmed",
    "Verif.Trim.C273_prefix",
    "Verif.Trim.C273_python_partial",
    "Verif.Trim.C273_download_partial",
    "Verif.Trim.C273_false"
   ],
   "note": "the library strips as stated; Python strips more kinds of blanks than the library, so that with a no-break space at the end of the prefix it returns a prefix under which nothing was saved (C273_false); proved for texts whose blanks are those of C"
  },
  {
   "property": "C274",
   "status": "partial",
   "theorems": [
    "Verif.Python.C274_call_partial",
    "Verif.Python.C274_false"
   ],
   "note": "the Python function ends with `return;` and never returns the number, whatever the library computes (C274_false); what holds is when the call returns and when the process ends"
  },
  {
   "property": "C275",
   "status": "partial",
   "theorems": [
    "Verif.Python.C275_print_partial",
    "Verif.Python.C275_false"
   ],
   "note": "a text of exactly 2^20 characters passes the check of the library and its terminator is written behind the buffer (C275_false); proved for all other lengths"
  },
  {
   "property": "C28",
   "status": "partial",
   "theorems": [
    "Verif.Registry.C28_call_keeps_names_unique",
    "Verif.Registry.C28_names_unique_partial",
    "Verif.Registry.C28_circuit_preprocessor_partial",
    "Verif.Registry.C28_false_circuit_preprocessor"
   ],
   "note": "The code violates C28: circuit_preprocessor checks only one table (witness). Proved over all histories of the other calls, and for circuit_preprocessor when its names are not used by other kinds of variables. Hypothesis on optimal_laptime: output names contain no '/'."
  },
  {
   "property": "C29",
   "status": "proved",
   "theorems": [
    "Verif.Registry.C29_scalar_kept",
    "Verif.Registry.C29_vector_kept",
    "Verif.Registry.C29_scalar_create_then_download",
    "Verif.Registry.C29_vector_create_then_download"
   ],
   "note": ""
  },
  {
   "property": "C30",
   "status": "proved",
   "theorems": [
    "Verif.Registry.C30_copy",
    "Verif.Registry.C30_move"
   ],
   "note": "For registries in which names are unique (C28)."
  },
  {
   "property": "C31",
   "status": "partial",
   "theorems": [
    "Verif.Registry.C31_delete_partial",
    "Verif.Registry.C31_delete_twice",
    "Verif.Registry.C31_false_dot",
    "Verif.Registry.C31_false_line_break"
   ],
   "note": "The code violates C31 for patterns containing '.' and other regex metacharacters and for names with line breaks (witnesses). Proved for ordinary characters and '*'."
  },
  {
   "property": "C32",
   "status": "proved",
   "theorems": [
    "Verif.Registry.C32_throw_changes_nothing",
    "Verif.Registry.C32_create_scalar_accepted_iff"
   ],
   "note": ""
  },
  {
   "property": "C33",
   "status": "partial",
   "theorems": [
    "Verif.Registry.C33_print_in_buffer_partial",
    "Verif.Registry.C33_false_exact_length",
    "Verif.Registry.C33_false_negative_size"
   ],
   "note": "The code violates C33 when the buffer has exactly the length of the text, and for negative sizes."
  },
  {
   "property": "C34",
   "status": "proved",
   "theorems": [
    "Verif.Registry.C34_download_vector",
    "Verif.Registry.C34_track_download"
   ],
   "note": ""
  },
  {
   "property": "C35",
   "status": "proved",
   "theorems": [
    "Verif.Registry.C35_aliases_round_trip"
   ],
   "note": ""
  },
  {
   "property": "C36",
   "status": "partial",
   "theorems": [
    "Verif.Kerbs.C36_ordered_partial",
    "Verif.Kerbs.C36_all_positive_partial",
    "Verif.Kerbs.C36_false"
   ],
   "note": "The code violates C36: the first kerb of a side is not checked (witness). Proved for all the others."
  },
  {
   "property": "C37",
   "status": "proved",
   "theorems": [
    "Verif.Kerbs.C37_first_kerb",
    "Verif.Kerbs.C37_only_kerb"
   ],
   "note": ""
  },
  {
   "property": "C38",
   "status": "proved",
   "theorems": [
    "Verif.Arcs.C38_smooth"
   ],
   "note": "For segments before the last of positive length and corner radii up to 1e10."
  },
  {
   "property": "C39",
   "status": "proved",
   "theorems": [
    "Verif.Arcs.C39_lengths",
    "Verif.Arcs.C39_passes_through_starts"
   ],
   "note": "As in the code, the last straight of a closed track has the length of the gap to the start."
  },
  {
   "property": "C40",
   "status": "partial",
   "theorems": [
    "Verif.Arcs.C40_unknown_rejected_partial",
    "Verif.Arcs.C40_known_accepted",
    "Verif.Arcs.C40_false"
   ],
   "note": "The code violates C40: an unknown last segment is accepted with zero length (witness). Proved for all the other positions."
  },
  {
   "property": "C41",
   "status": "proved",
   "theorems": [
    "Verif.Road.C41_moves_with_the_car",
    "Verif.Road.C41_advances_iff",
    "Verif.Road.C41_flat_heading",
    "Verif.Road.C41_euler_rates"
   ],
   "note": "Proved for roads in space, the planar road is the special case."
  },
  {
   "property": "C42",
   "status": "proved",
   "theorems": [
    "Verif.Road.C42_orthonormal",
    "Verif.Road.C42_flat"
   ],
   "note": ""
  },
  {
   "property": "C43",
   "status": "proved",
   "theorems": [
    "Verif.Road.C43_cartesian"
   ],
   "note": ""
  },
  {
   "property": "C44",
   "status": "proved",
   "theorems": [
    "Verif.Power.C44_power",
    "Verif.Power.C44_never_brakes",
    "Verif.Power.C44_linear_in_throttle",
    "Verif.Power.C44_continuous"
   ],
   "note": "The power polynomial is a parameter of the model; non-negative in its range where stated."
  },
  {
   "property": "C45",
   "status": "proved",
   "theorems": [
    "Verif.Tyre.C45_friction_ellipse"
   ],
   "note": "smooth_pos is assumed non-negative."
  },
  {
   "property": "C46",
   "status": "proved",
   "theorems": [
    "Verif.Tyre.C46_simple",
    "Verif.Tyre.C46_standard"
   ],
   "note": ""
  },
  {
   "property": "C47",
   "status": "proved",
   "theorems": [
    "Verif.Tyre.C47_combined_at_most_pure"
   ],
   "note": ""
  },
  {
   "property": "C48",
   "status": "proved",
   "theorems": [
    "Verif.Tyre.C48_inverse",
    "Verif.Tyre.C48_slips"
   ],
   "note": ""
  },
  {
   "property": "C49",
   "status": "proved",
   "theorems": [
    "Verif.Power.C49_suspension"
   ],
   "note": ""
  },
  {
   "property": "C50",
   "status": "proved",
   "theorems": [
    "Verif.Power.C50_power_balance",
    "Verif.Power.C50_at_most_engine_power"
   ],
   "note": "With the braking term. smooth_pos and smooth_sign are assumed non-negative and sign-preserving."
  },
  {
   "property": "C51",
   "status": "proved",
   "theorems": [
    "Verif.Power.C51_brakes_dissipate",
    "Verif.Power.C51_bias_distributes",
    "Verif.Power.C51_kart"
   ],
   "note": "smooth_pos and smooth_sign are assumed non-negative and sign-preserving."
  },
  {
   "property": "C52",
   "status": "proved",
   "theorems": [
    "Verif.Chassis.C52_vertical",
    "Verif.Chassis.C52_magnitude"
   ],
   "note": ""
  },
  {
   "property": "C53",
   "status": "partial",
   "theorems": [
    "Verif.F1.C53_all_set",
    "Verif.F1.C53_angles",
    "Verif.F1.C53_inputs_partial",
    "Verif.F1.C53_controls",
    "Verif.F1.C53_false"
   ],
   "note": "True for all controls and for all inputs but the tyre loads, whose default 0.25 has the wrong sign (witness)."
  },
  {
   "property": "C54",
   "status": "proved",
   "theorems": [
    "Verif.F1.C54_partition",
    "Verif.F1.C54_out_of_range",
    "Verif.F1.C54_f1",
    "Verif.F1.C54_algebraic_states_vanish"
   ],
   "note": ""
  },
  {
   "property": "C55",
   "status": "proved",
   "theorems": [
    "Verif.Routing.C55_copies_agree",
    "Verif.Routing.C55_same_evaluation"
   ],
   "note": ""
  },
  {
   "property": "C56",
   "status": "partial",
   "theorems": [
    "Verif.F1.C56_constraints",
    "Verif.F1.C56_overshoot",
    "Verif.F1.C56_wheels_inside_partial",
    "Verif.F1.C56_false"
   ],
   "note": "The constraint ignores the longitudinal position of the axles and the rear track: true for a car aligned with the road and a rear track not wider than the front one; the exact overshoot and a witness are proved."
  },
  {
   "property": "C57",
   "status": "proved",
   "theorems": [
    "Verif.Preprocessor.C57_round_trip",
    "Verif.Preprocessor.C57_solution"
   ],
   "note": ""
  },
  {
   "property": "C58",
   "status": "proved",
   "theorems": [
    "Verif.Preprocessor.C58_boundaries",
    "Verif.Preprocessor.C58_same_as_road",
    "Verif.Preprocessor.C58_widths"
   ],
   "note": ""
  },
  {
   "property": "C59",
   "status": "proved",
   "theorems": [
    "Verif.Preprocessor.C59_with_elevation",
    "Verif.Preprocessor.C59_without_elevation"
   ],
   "note": ""
  },
  {
   "property": "C60",
   "status": "proved",
   "theorems": [
    "Verif.Preprocessor.C60_continuous",
    "Verif.Preprocessor.C60_towards_next"
   ],
   "note": "wrap_to_pi is assumed to return the same angle within half a turn."
  },
  {
   "property": "C61",
   "status": "partial",
   "theorems": [
    "Verif.Registry.C61_lap_only_adds_partial",
    "Verif.Registry.C61_taken_name_adds_nothing_partial",
    "Verif.Registry.C61_false_leftover"
   ],
   "note": "The code violates C61: the lap time is stored before an unknown integral quantity or vector name is rejected (witness). Proved: nothing stored is changed or removed, and a taken name is detected before anything is stored."
  },
  {
   "property": "C62",
   "status": "partial",
   "theorems": [
    "Verif.Registry.C62_names_fit_partial",
    "Verif.Registry.C62_false_zero_size",
    "Verif.Registry.C62_false_variable_type"
   ],
   "note": "The code violates C62 for n_char = 0 and in variable_type, which ignores the size."
  },
  {
   "property": "C63",
   "status": "proved",
   "theorems": [
    "Verif.Registry.C63_lap_saves_requested",
    "Verif.Registry.C63_lap_saves_derivatives"
   ],
   "note": ""
  },
  {
   "property": "C64",
   "status": "proved",
   "theorems": [
    "Verif.Transcription.C64_constraint_bounds",
    "Verif.Transcription.C64_rows_direct",
    "Verif.Transcription.C64_rows_derivative"
   ],
   "note": "RowsAre and BoundsAre give rows and bounds at the same positions. Hypotheses: accepted request, vehicle with consistent compile-time sizes, hypermeshes that increase and start at or before the mesh (see C20)."
  },
  {
   "property": "C65",
   "status": "proved",
   "theorems": [
    "Verif.Transcription.C65_warm_start_direct",
    "Verif.Transcription.C65_warm_start_derivative",
    "Verif.Transcription.C65_cold_start"
   ],
   "note": ""
  },
  {
   "property": "C66",
   "status": "proved",
   "theorems": [
    "Verif.Transcription.C66_integral_quantities"
   ],
   "note": "For vehicles whose table of names has no duplicates."
  },
  {
   "property": "C67",
   "status": "partial",
   "theorems": [
    "Verif.Registry.C67_blanks_ignored_partial",
    "Verif.Registry.C67_false"
   ],
   "note": "The code violates C67: a blank before a separator stays in the name (witness). Proved for blanks after the separators and around the whole list."
  },
  {
   "property": "C68",
   "status": "partial",
   "theorems": [
    "Verif.Kerbs.C68_kerbs_placed_partial",
    "Verif.Kerbs.C68_false"
   ],
   "note": "The code violates C68: a stretch that reaches the last sample gets no kerb (witness). Proved for all the others."
  },
  {
   "property": "C69",
   "status": "proved",
   "theorems": [
    "Verif.Kerbs.C69_limits_with_kerbs"
   ],
   "note": ""
  },
  {
   "property": "C70",
   "status": "partial",
   "theorems": [
    "Verif.Arcs.C70_closes_partial",
    "Verif.Arcs.C70_false"
   ],
   "note": "The code violates C70: nothing checks that the last straight points to the start (witness). Proved when it does."
  },
  {
   "property": "C71",
   "status": "proved",
   "theorems": [
    "Verif.Arcs.C71_curvature"
   ],
   "note": ""
  },
  {
   "property": "C72",
   "status": "proved",
   "theorems": [
    "Verif.Arcs.C72_offset_line"
   ],
   "note": "Away from the joints, where the second derivative jumps."
  },
  {
   "property": "C73",
   "status": "proved",
   "theorems": [
    "Verif.Road.C73_curvature_rotates_frame"
   ],
   "note": ""
  },
  {
   "property": "C74",
   "status": "partial",
   "theorems": [
    "Verif.Power.C74_reported_power_partial",
    "Verif.Power.C74_false"
   ],
   "note": "The code violates C74: with a power curve the reported power is never written (witness). Proved in maximum-power mode."
  },
  {
   "property": "C75",
   "status": "partial",
   "theorems": [
    "Verif.Power.C75_torque_derivative_partial",
    "Verif.Power.C75_curve_derivative_partial",
    "Verif.Power.C75_actual_curve",
    "Verif.Power.C75_false"
   ],
   "note": "The code violates C75: with a power curve the speed enters through its plain value (witness). Proved in maximum-power and direct-torque mode; with a curve the missing term is given exactly."
  },
  {
   "property": "C76",
   "status": "proved",
   "theorems": [
    "Verif.Arcs.C76_evaluation_defined"
   ],
   "note": ""
  },
  {
   "property": "C77",
   "status": "partial",
   "theorems": [
    "Verif.Power.C77_tyres_consistent_partial",
    "Verif.Power.C77_false"
   ],
   "note": "The code violates C77 when the two steering coefficients are not opposite, which nothing checks (witness). Proved when they are."
  },
  {
   "property": "C78",
   "status": "partial",
   "theorems": [
    "Verif.Power.C78_tyre_velocity_partial",
    "Verif.Power.C78_false"
   ],
   "note": "The code violates C78: the velocity due to a change of the steering angle is left out (witness). Proved while the steering angle is constant."
  },
  {
   "property": "C79",
   "status": "partial",
   "theorems": [
    "Verif.Tyre.C79_rolls_freely_partial",
    "Verif.Tyre.C79_false"
   ],
   "note": "The code violates C79: when updated with a slip, the speed of a lateral-only tyre is overwritten (witness). Proved when updated with a speed."
  },
  {
   "property": "C80",
   "status": "proved",
   "theorems": [
    "Verif.Tyre.C80_derived_coefficients",
    "Verif.Tyre.C80_accepts",
    "Verif.Tyre.C80_sets_one"
   ],
   "note": ""
  },
  {
   "property": "C81",
   "status": "partial",
   "theorems": [
    "Verif.Tyre.C81_peak_partial",
    "Verif.Tyre.C81_false"
   ],
   "note": "The code violates C81: the shape coefficient does not put the peak at the declared slip (witness). Proved: where the peak is, for shape factors in (1, 2]."
  },
  {
   "property": "C82",
   "status": "proved",
   "theorems": [
    "Verif.Tyre.C82_simple_dissipates",
    "Verif.Tyre.C82_standard_dissipates"
   ],
   "note": "smooth_pos is assumed non-negative."
  },
  {
   "property": "C83",
   "status": "partial",
   "theorems": [
    "Verif.Tyre.C83_power_balance_partial",
    "Verif.Tyre.C83_defect",
    "Verif.Tyre.C83_moment",
    "Verif.Tyre.C83_false"
   ],
   "note": "The code violates C83 for deformed tyres: the lever arms of torque and dissipation differ (witness and exact defect). Proved for undeformed tyres."
  },
  {
   "property": "C84",
   "status": "proved",
   "theorems": [
    "Verif.Tyre.C84_longitudinal_stiffness",
    "Verif.Tyre.C84_lateral_stiffness",
    "Verif.Tyre.C84_lateral_limit"
   ],
   "note": ""
  },
  {
   "property": "C85",
   "status": "partial",
   "theorems": [
    "Verif.Tyre.C85_declared_friction_partial",
    "Verif.Tyre.C85_declared_slips",
    "Verif.Tyre.C85_false"
   ],
   "note": "The code violates C85: coefficients below 1 are replaced by at least 1 (witness). Proved for coefficients of at least 1, up to the error of smooth_pos."
  },
  {
   "property": "C86",
   "status": "proved",
   "theorems": [
    "Verif.Chassis.C86_momentum",
    "Verif.Chassis.C86_total_force"
   ],
   "note": ""
  },
  {
   "property": "C87",
   "status": "partial",
   "theorems": [
    "Verif.Chassis.C87_com_velocity_partial",
    "Verif.Chassis.C87_false"
   ],
   "note": "The code violates C87 when the centre of mass is not above the origin of the road frame, which nothing checks (witness). Proved when it is."
  },
  {
   "property": "C88",
   "status": "partial",
   "theorems": [
    "Verif.Chassis.C88_angular_momentum_partial",
    "Verif.Chassis.C88_false"
   ],
   "note": "The code violates C88 for inertia matrices with products of inertia, accepted as parameters (witness). Proved for diagonal ones."
  },
  {
   "property": "C89",
   "status": "partial",
   "theorems": [
    "Verif.Chassis.C89_torque_partial",
    "Verif.Chassis.C89_defect",
    "Verif.Chassis.C89_false"
   ],
   "note": "The code violates C89: the moment arm of the aerodynamic force is reduced twice by the position of the centre of mass (witness and exact defect). Proved when the aerodynamic force is in line with it."
  },
  {
   "property": "C90",
   "status": "proved",
   "theorems": [
    "Verif.Chassis.C90_roll_balance",
    "Verif.Chassis.C90_converse"
   ],
   "note": ""
  },
  {
   "property": "C91",
   "status": "proved",
   "theorems": [
    "Verif.Chassis.C91_components",
    "Verif.Chassis.C91_rates"
   ],
   "note": ""
  },
  {
   "property": "C92",
   "status": "proved",
   "theorems": [
    "Verif.Chassis.C92_relative_velocity",
    "Verif.Chassis.C92_directions",
    "Verif.Chassis.C92_only_relative"
   ],
   "note": ""
  },
  {
   "property": "C93",
   "status": "partial",
   "theorems": [
    "Verif.Chassis.C93_magnitude_partial",
    "Verif.Chassis.C93_false"
   ],
   "note": "The code violates C93: the speed is measured in the plane of the road only (witness). Proved for velocities in that plane."
  },
  {
   "property": "C94",
   "status": "partial",
   "theorems": [
    "Verif.Chassis.C94_indicator",
    "Verif.Chassis.C94_ackermann",
    "Verif.Chassis.C94_mirror_partial",
    "Verif.Chassis.C94_false"
   ],
   "note": "The code violates C94 for a car that goes straight (witness). Proved for a car that turns."
  },
  {
   "property": "C95",
   "status": "proved",
   "theorems": [
    "Verif.Chassis.C95_yaw_rate",
    "Verif.Chassis.C95_angular_velocity"
   ],
   "note": ""
  },
  {
   "property": "C96",
   "status": "proved",
   "theorems": [
    "Verif.Chassis.C96_pushes",
    "Verif.Chassis.C96_balance"
   ],
   "note": "smooth_pos is assumed non-negative and close to the positive part."
  },
  {
   "property": "C97",
   "status": "proved",
   "theorems": [
    "Verif.Routing.C97_accepts",
    "Verif.Routing.C97_changes_exactly",
    "Verif.Routing.C97_last_value",
    "Verif.Routing.C97_both_tyres"
   ],
   "note": ""
  },
  {
   "property": "C98",
   "status": "partial",
   "theorems": [
    "Verif.Routing.C98_ready_partial",
    "Verif.Routing.C98_complete",
    "Verif.Routing.C98_false"
   ],
   "note": "The code violates C98: brakes, engine and boost do not count (witness: ready without an engine power). Proved for all other parameters."
  },
  {
   "property": "C99",
   "status": "proved",
   "theorems": [
    "Verif.Routing.C99_geometry"
   ],
   "note": ""
  }
 ]
}