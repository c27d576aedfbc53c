import Verif.Lemmas.Lap
import Verif.Props.Transcription
import Mathlib.Tactic.IntervalCases

/-! Property theorems C03, C05..C12, C64, C65: cost, constraints and lap time. -/

set_option autoImplicit false

namespace Verif.Transcription

open Verif.Control

variable {K : Type*} [Field K] [LinearOrder K]

/-- An accepted request on a vehicle, with its initial point, whose hypermeshes cover the mesh. -/
structure Run (lowest max : K) (v : Vehicle K) (r : Request K) (p : Problem K) (ini : Initial K) : Prop where
  wf : v.WellFormed r.controls.length
  prepared : prepare lowest max v r = .ok p
  initial : (if r.isDirect then initialDirect v p else initialDerivative v p) = .ok ini
  covers : HypermeshCovers p

namespace Run

variable {lowest max : K} {v : Vehicle K} {r : Request K} {p : Problem K} {ini : Initial K}

theorem shape (h : Run lowest max v r p ini) : Shape p := prepare_shape h.prepared

theorem defaults (h : Run lowest max v r p ini) : v.controlsDef.length = p.controls.length :=
  wellFormed_defaults h.wf h.prepared

theorem consistent (h : Run lowest max v r p ini) : ∀ c ∈ p.controls, Consistent c :=
  prepare_consistent h.prepared

theorem isDirect (h : Run lowest max v r p ini) : p.isDirect = r.isDirect := (prepare_ok h.prepared).2.isDirect

theorem iniLength (h : Run lowest max v r p ini) : ini.controls.length = p.controls.length := by
  have hi := h.initial
  cases hd : r.isDirect
  · rw [hd] at hi; exact (initialDerivative_spec h.defaults hi).1
  · rw [hd] at hi; exact (initialDirect_spec h.defaults hi).1

theorem direct (h : Run lowest max v r p ini) (hd : r.isDirect = true) (st : Loaded K) (hst : FitsProblem p st)
    (x : List K) (hx : x.length = nVariables v p) :
    ∃ (st' : Loaded K) (node : Nat → Node K) (c : List K),
      fgDirect v p ini st x = .ok ((quadrature v p node (fun nd => dtds v nd.eq)
        + overFullMesh (slopePenalty v p node) st'.controls) :: c, st') ∧
      Decoded v p ini st st' x ∧ evalNodes v p st' = .ok ((List.range p.nPoints).map node) ∧
      EvaluatedNodes v p st' node ∧ RowsAre v p st'.controls node (codedIntegral v p node) c :=
  fgDirect_ok h.wf.equations h.wf.lateral h.shape h.consistent h.defaults h.covers (h.isDirect.trans hd) ini
    h.iniLength st hst x hx

theorem derivative (h : Run lowest max v r p ini) (hd : r.isDirect = false) (st : Loaded K)
    (hst : FitsProblem p st) (x : List K) (hx : x.length = nVariables v p) :
    ∃ (st' : Loaded K) (node : Nat → Node K) (c : List K),
      fgDerivative v p ini st x = .ok ((quadrature v p node (fun nd => dtds v nd.eq)
        + overFullMesh (fun c => ∑ e ∈ Finset.range p.nElements, codedRatePenalty v p node c e) st'.controls) :: c,
        st') ∧
      Decoded v p ini st st' x ∧ evalNodes v p st' = .ok ((List.range p.nPoints).map node) ∧
      EvaluatedNodes v p st' node ∧ RowsAre v p st'.controls node (codedIntegral v p node) c :=
  fgDerivative_ok h.wf.equations h.wf.lateral h.shape h.consistent h.defaults h.covers (h.isDirect.trans hd) ini
    h.iniLength st hst x hx

theorem row0 (h : Run lowest max v r p ini) {st : Loaded K} (hst : FitsProblem p st) :
    ∃ row, st.inputs[0]? = some row :=
  ⟨_, List.getElem?_eq_getElem (by rw [hst.inputs]; have := h.shape.two; omega)⟩

theorem closedEnd [IsStrictOrderedRing K] (h : Run lowest max v r p ini) (hc : p.isClosed = true) (b : K)
    (hb : p.s.getLast? = some b) : b < v.trackLength := by
  obtain ⟨hacc, g⟩ := prepare_ok h.prepared
  have hrc : r.isClosed = true := g.isClosed ▸ hc
  rw [g.s, if_pos hrc] at hb
  have h2 := hacc.two
  match hrs : r.s with
  | [] => simp [hrs] at h2
  | [a] => simp [hrs] at h2
  | a :: a' :: l =>
    rw [hrs] at hb
    have hl : r.s.getLast? = some b := by
      rw [hrs]
      simpa [List.getLast?_cons_cons] using hb
    have := (hacc.closedEnds hrc a b (by rw [hrs]; rfl) hl).2
    have hpos : (0 : K) < 1 / 10 ^ 10 := by positivity
    linarith

end Run

/-- Explicit number of constraints of a request. -/
def expectedConstraints (v : Vehicle K) (r : Request K) (p : Problem K) : Nat :=
  (if r.isClosed then r.s.length else r.s.length - 1) *
      (v.nInputs - 1 + v.nExtra + (if r.isDirect then 0 else r.controls.countP (fun c => c.kind = .fullMesh)))
    + (p.quantities.filter fun q => q.restrict).length

theorem nConstraints_eq {lowest max : K} {v : Vehicle K} {r : Request K} {p : Problem K}
    (hp : prepare lowest max v r = .ok p) : nConstraints v p = expectedConstraints v r p := by
  have g := (prepare_ok hp).2
  rw [nConstraints, nConstraintsPerElement, expectedConstraints, g.nElements, g.isDirect, g.stats, nRestricted_eq,
    nConstrained]

theorem size_eq {lowest max : K} {v : Vehicle K} {r : Request K} {p : Problem K}
    (hp : prepare lowest max v r = .ok p) :
    p.nElements * rowsPerElement v p + nConstrained p.quantities = nConstraints v p := by
  have hs := prepare_shape hp
  rw [nConstraints, nConstraintsPerElement, rowsPerElement, nRestricted_eq, hs.full]

/-! ## C64: bounds of the constraints -/

/-- C64: building the constraint bounds succeeds, with one pair per advertised constraint, and
the pairs are those of the rows of `RowsAre` at the same positions. -/
theorem C64_constraint_bounds (lowest max : K) (v : Vehicle K) (r : Request K) (hv : v.WellFormed r.controls.length)
    (p : Problem K) (hp : prepare lowest max v r = .ok p) :
    ∃ b, constraintBounds v p = .ok b ∧ b.length = nConstraints v p ∧ BoundsAre v p b := by
  obtain ⟨b, h1, h2⟩ := boundsAre_of_blocks hv.equations (prepare_shape hp)
  exact ⟨b, h1, h2.size.trans (size_eq hp), h2⟩

/-- C64: the rows, at those positions, direct form. -/
theorem C64_rows_direct (lowest max : K) (v : Vehicle K) (r : Request K) (p : Problem K) (ini : Initial K)
    (h : Run lowest max v r p ini) (hd : r.isDirect = true) (st : Loaded K) (hst : FitsProblem p st) (x : List K)
    (hx : x.length = nVariables v p) :
    ∃ cost c st' node, fgDirect v p ini st x = .ok (cost :: c, st') ∧ Decoded v p ini st st' x ∧
      EvaluatedNodes v p st' node ∧ RowsAre v p st'.controls node (codedIntegral v p node) c := by
  obtain ⟨st', node, c, h1, h2, _, h4, h5⟩ := h.direct hd st hst x hx
  exact ⟨_, c, st', node, h1, h2, h4, h5⟩

/-- C64: the rows, at those positions, derivative form. -/
theorem C64_rows_derivative (lowest max : K) (v : Vehicle K) (r : Request K) (p : Problem K) (ini : Initial K)
    (h : Run lowest max v r p ini) (hd : r.isDirect = false) (st : Loaded K) (hst : FitsProblem p st) (x : List K)
    (hx : x.length = nVariables v p) :
    ∃ cost c st' node, fgDerivative v p ini st x = .ok (cost :: c, st') ∧ Decoded v p ini st st' x ∧
      EvaluatedNodes v p st' node ∧ RowsAre v p st'.controls node (codedIntegral v p node) c := by
  obtain ⟨st', node, c, h1, h2, _, h4, h5⟩ := h.derivative hd st hst x hx
  exact ⟨_, c, st', node, h1, h2, h4, h5⟩

/-! ## C03, C05: number of constraints -/

/-- C03: the direct cost function writes the cost and exactly the advertised constraints. -/
theorem C03_direct_constraints (lowest max : K) (v : Vehicle K) (r : Request K) (p : Problem K) (ini : Initial K)
    (h : Run lowest max v r p ini) (hd : r.isDirect = true) (st : Loaded K) (hst : FitsProblem p st) (x : List K)
    (hx : x.length = nVariables v p) :
    ∃ fg st' b, fgDirect v p ini st x = .ok (fg, st') ∧ fg.length = 1 + nConstraints v p ∧
      constraintBounds v p = .ok b ∧ b.length = nConstraints v p ∧ nConstraints v p = expectedConstraints v r p := by
  obtain ⟨cost, c, st', node, h1, _, _, h4⟩ := C64_rows_direct lowest max v r p ini h hd st hst x hx
  obtain ⟨b, h5, h6, _⟩ := C64_constraint_bounds lowest max v r h.wf p h.prepared
  refine ⟨_, st', b, h1, ?_, h5, h6, nConstraints_eq h.prepared⟩
  rw [List.length_cons, h4.size, size_eq h.prepared, Nat.add_comm]

/-- C05: the same for the derivative form. -/
theorem C05_derivative_constraints (lowest max : K) (v : Vehicle K) (r : Request K) (p : Problem K)
    (ini : Initial K) (h : Run lowest max v r p ini) (hd : r.isDirect = false) (st : Loaded K)
    (hst : FitsProblem p st) (x : List K) (hx : x.length = nVariables v p) :
    ∃ fg st' b, fgDerivative v p ini st x = .ok (fg, st') ∧ fg.length = 1 + nConstraints v p ∧
      constraintBounds v p = .ok b ∧ b.length = nConstraints v p ∧ nConstraints v p = expectedConstraints v r p := by
  obtain ⟨cost, c, st', node, h1, _, _, h4⟩ := C64_rows_derivative lowest max v r p ini h hd st hst x hx
  obtain ⟨b, h5, h6, _⟩ := C64_constraint_bounds lowest max v r h.wf p h.prepared
  refine ⟨_, st', b, h1, ?_, h5, h6, nConstraints_eq h.prepared⟩
  rw [List.length_cons, h4.size, size_eq h.prepared, Nat.add_comm]

/-! ## C65: warm start -/

/-- C65: direct form. `es` are the packed variables and `b` the constraint bounds; multipliers are
accepted exactly when there is one per variable (lower and upper) and one per constraint. -/
theorem C65_warm_start_direct (lowest max : K) (v : Vehicle K) (r : Request K) (hv : v.WellFormed r.controls.length)
    (hd : r.isDirect = true) (p : Problem K) (hp : prepare lowest max v r = .ok p) (zl zu lambda : List K)
    (hw : r.warm = some (zl, zu, lambda)) :
    ∃ es b, packDirect v p lowest max = .ok es ∧ constraintBounds v p = .ok b ∧
      (checkWarm v p = .ok () ↔ zl.length = es.length ∧ zu.length = es.length ∧ lambda.length = b.length) ∧
      (checkWarm v p = .throw ↔ ¬ (zl.length = es.length ∧ zu.length = es.length ∧ lambda.length = b.length)) := by
  obtain ⟨es, h1, h2, _⟩ := C02_direct_size lowest max v r hv hd p hp
  obtain ⟨b, h3, h4, _⟩ := C64_constraint_bounds lowest max v r hv p hp
  refine ⟨es, b, h1, h3, ?_⟩
  have hw' : p.warm = some (zl, zu, lambda) := (prepare_ok hp).2.warm.trans hw
  rw [h2, h4, checkWarm, hw']
  by_cases e1 : zl.length = nVariables v p <;> by_cases e2 : zu.length = nVariables v p <;>
    by_cases e3 : lambda.length = nConstraints v p <;> simp [e1, e2, e3]

/-- C65: derivative form, whenever the variables can be packed (see C04). -/
theorem C65_warm_start_derivative (lowest max : K) (v : Vehicle K) (r : Request K)
    (hv : v.WellFormed r.controls.length) (hd : r.isDirect = false) (p : Problem K)
    (hp : prepare lowest max v r = .ok p) (zl zu lambda : List K) (hw : r.warm = some (zl, zu, lambda))
    (es : List (Entry K)) (hes : packDerivative v p lowest max = .ok es) :
    ∃ b, constraintBounds v p = .ok b ∧
      (checkWarm v p = .ok () ↔ zl.length = es.length ∧ zu.length = es.length ∧ lambda.length = b.length) ∧
      (checkWarm v p = .throw ↔ ¬ (zl.length = es.length ∧ zu.length = es.length ∧ lambda.length = b.length)) := by
  have hc : ∀ c ∈ r.controls, c.kind ≠ .constant := by
    intro c hm hk
    rw [C04_false_constant_control lowest max v r hv hd p hp ⟨c, hm, hk⟩] at hes
    simp at hes
  have hr := (((C103_derivative_built_iff lowest max v r hv hd p hp).1).1 ⟨es, hes⟩).1
  obtain ⟨es', h1, h2, _⟩ := C04_derivative_size_partial lowest max v r hv hd p hp hc hr
  rw [hes] at h1
  simp only [Res.ok.injEq] at h1
  subst h1
  obtain ⟨b, h3, h4, _⟩ := C64_constraint_bounds lowest max v r hv p hp
  refine ⟨b, h3, ?_⟩
  have hw' : p.warm = some (zl, zu, lambda) := (prepare_ok hp).2.warm.trans hw
  rw [h2, h4, checkWarm, hw']
  by_cases e1 : zl.length = nVariables v p <;> by_cases e2 : zu.length = nVariables v p <;>
    by_cases e3 : lambda.length = nConstraints v p <;> simp [e1, e2, e3]

/-- C65: a request without multipliers is not checked. -/
theorem C65_cold_start (lowest max : K) (v : Vehicle K) (r : Request K) (p : Problem K)
    (hp : prepare lowest max v r = .ok p) (hw : r.warm = none) : checkWarm v p = .ok () := by
  rw [checkWarm, (prepare_ok hp).2.warm, hw]

/-! ## C06, C07: cost and lap time, direct form -/

/-- C06: the direct cost is the reported lap time, counted from the time of the first node, plus
the smoothing penalty. -/
theorem C06_cost_direct (lowest max : K) (v : Vehicle K) (r : Request K) (p : Problem K) (ini : Initial K)
    (h : Run lowest max v r p ini) (hd : r.isDirect = true) (st : Loaded K) (hst : FitsProblem p st) (x : List K)
    (hx : x.length = nVariables v p) :
    ∃ fg st' row0 times lap node, fgDirect v p ini st x = .ok (fg, st') ∧ EvaluatedNodes v p st' node ∧
      FitsProblem p st' ∧ st'.inputs[0]? = some row0 ∧ report v p st' = .ok (times, lap) ∧
      fg[0]? = some (lap - row0 v.iTime + overFullMesh (slopePenalty v p node) st'.controls) := by
  obtain ⟨st', node, c, h1, h2, h3, h4, _⟩ := h.direct hd st hst x hx
  obtain ⟨row0, h0⟩ := h.row0 h2.fits
  refine ⟨_, st', row0, _, _, node, h1, h4, h2.fits, h0, report_eq h.shape h0 h3, ?_⟩
  simp

section ordered
variable [IsStrictOrderedRing K]

omit [IsStrictOrderedRing K] in
/-- Dissipations of loaded controls are not negative. -/
theorem Run.dissipation {lowest max : K} {v : Vehicle K} {r : Request K} {p : Problem K} {ini : Initial K}
    (h : Run lowest max v r p ini) {st : Loaded K} (hst : FitsProblem p st) :
    ∀ c ∈ st.controls, c.kind = .fullMesh → 0 ≤ c.dissipation := by
  intro c hc hk
  obtain ⟨d, hd, hf⟩ := hst.mem hc
  cases h.consistent d hd with
  | fullMesh k h1 h2 h3 => rw [hf.diss]; exact h3
  | _ k => rw [hf.kind, k] at hk; simp at hk

/-- C06: on a mesh that does not go back the lap time is at most the cost. -/
theorem C06_lap_at_most_cost (lowest max : K) (v : Vehicle K) (r : Request K) (p : Problem K) (ini : Initial K)
    (h : Run lowest max v r p ini) (hd : r.isDirect = true) (hs : p.s.Pairwise (· ≤ ·)) (st : Loaded K)
    (hst : FitsProblem p st) (x : List K) (hx : x.length = nVariables v p) :
    ∃ cost c st' row0 times lap, fgDirect v p ini st x = .ok (cost :: c, st') ∧ st'.inputs[0]? = some row0 ∧
      report v p st' = .ok (times, lap) ∧ lap - row0 v.iTime ≤ cost := by
  obtain ⟨st', node, c, h1, h2, h3, h4, _⟩ := h.direct hd st hst x hx
  obtain ⟨row0, h0⟩ := h.row0 h2.fits
  refine ⟨_, c, st', row0, _, _, h1, h0, report_eq h.shape h0 h3, ?_⟩
  have hpen : 0 ≤ overFullMesh (slopePenalty v p node) st'.controls :=
    overFullMesh_nonneg fun c hc hk => slopePenalty_nonneg (h.dissipation h2.fits c hc hk) fun e he =>
      elementLength_nonneg h.shape h4 hs (fun hcl b hb => (h.closedEnd hcl b hb).le) he
  linarith

omit [IsStrictOrderedRing K] in
/-- C06: without dissipation the two coincide. -/
theorem C06_no_dissipation (lowest max : K) (v : Vehicle K) (r : Request K) (p : Problem K) (ini : Initial K)
    (h : Run lowest max v r p ini) (hd : r.isDirect = true)
    (hz : ∀ c ∈ r.controls, c.kind = .fullMesh → c.dissipation = 0) (st : Loaded K)
    (hst : FitsProblem p st) (x : List K) (hx : x.length = nVariables v p) :
    ∃ cost c st' row0 times lap, fgDirect v p ini st x = .ok (cost :: c, st') ∧ st'.inputs[0]? = some row0 ∧
      report v p st' = .ok (times, lap) ∧ lap - row0 v.iTime = cost := by
  obtain ⟨st', node, c, h1, h2, h3, h4, _⟩ := h.direct hd st hst x hx
  obtain ⟨row0, h0⟩ := h.row0 h2.fits
  refine ⟨_, c, st', row0, _, _, h1, h0, report_eq h.shape h0 h3, ?_⟩
  have hpen : overFullMesh (slopePenalty v p node) st'.controls = 0 := by
    rw [overFullMesh_congr (g := fun _ => 0)]
    · simp [overFullMesh]
    · intro c hc hk
      obtain ⟨d, hd', hf⟩ := h2.fits.mem hc
      rw [(prepare_ok h.prepared).2.controls] at hd'
      obtain ⟨d0, hd0, rfl⟩ := List.mem_map.1 hd'
      have hk0 : d0.kind = .fullMesh := hf.kind ▸ hk
      have : c.dissipation = 0 := by
        rw [hf.diss]; simp [meaningful, hk0, hz d0 hd0 hk0]
      simp [slopePenalty, this]
  rw [hpen]; ring

/-- C07: with positive dissipations on an increasing mesh the cost is the lap time exactly when
no full-mesh control changes. -/
theorem C07_no_penalty_iff_constant (lowest max : K) (v : Vehicle K) (r : Request K) (p : Problem K)
    (ini : Initial K) (h : Run lowest max v r p ini) (hd : r.isDirect = true) (hs : p.s.Pairwise (· < ·))
    (hpos : ∀ c ∈ r.controls, c.kind = .fullMesh → 0 < c.dissipation) (st : Loaded K)
    (hst : FitsProblem p st) (x : List K) (hx : x.length = nVariables v p) :
    ∃ cost c st' row0 times lap, fgDirect v p ini st x = .ok (cost :: c, st') ∧ st'.inputs[0]? = some row0 ∧
      report v p st' = .ok (times, lap) ∧
      (cost = lap - row0 v.iTime ↔
        ∀ c ∈ st'.controls, c.kind = .fullMesh → ∀ a ∈ c.controls, ∀ b ∈ c.controls, a = b) := by
  obtain ⟨st', node, c, h1, h2, h3, h4, _⟩ := h.direct hd st hst x hx
  obtain ⟨row0, h0⟩ := h.row0 h2.fits
  refine ⟨_, c, st', row0, _, _, h1, h0, report_eq h.shape h0 h3, ?_⟩
  have hle : ∀ e, e < p.nElements → 0 < elementLength v p node e := fun e he =>
    elementLength_pos h.shape h4 hs (h.closedEnd) he
  have hdp : ∀ c ∈ st'.controls, c.kind = .fullMesh → 0 < c.dissipation := by
    intro c hc hk
    obtain ⟨d, hd', hf⟩ := h2.fits.mem hc
    rw [(prepare_ok h.prepared).2.controls] at hd'
    obtain ⟨d0, hd0, rfl⟩ := List.mem_map.1 hd'
    have hk0 : d0.kind = .fullMesh := hf.kind ▸ hk
    rw [hf.diss]
    simpa [meaningful, hk0] using hpos d0 hd0 hk0
  have e1 : (quadrature v p node (fun nd => dtds v nd.eq) + overFullMesh (slopePenalty v p node) st'.controls
      = row0 v.iTime + quadrature v p node (fun nd => dtds v nd.eq) - row0 v.iTime) ↔
      overFullMesh (slopePenalty v p node) st'.controls = 0 := by
    constructor <;> intro hh <;> linarith
  rw [e1, overFullMesh_eq_zero (fun c hc hk => slopePenalty_nonneg (hdp c hc hk).le fun e he => (hle e he).le)]
  have hlen : ∀ c ∈ st'.controls, c.kind = .fullMesh → c.controls.length = p.nPoints :=
    (h.shape.replace h2.fits).values
  constructor
  · intro hz c hc hk a ha b hb
    have hz' := (slopePenalty_eq_zero h.shape (hdp c hc hk) hle).1 (hz c hc hk)
    have key : ∀ a ∈ c.controls, a = valueAt c 0 := by
      intro a ha
      obtain ⟨i, hi, rfl⟩ := List.getElem_of_mem ha
      rw [← hz' i (by rw [← hlen c hc hk]; exact hi), valueAt]
      simp [List.getD, hi]
    rw [key a ha, key b hb]
  · intro hz c hc hk
    refine (slopePenalty_eq_zero h.shape (hdp c hc hk) hle).2 fun i hi => ?_
    have hl := hlen c hc hk
    have h2' := h.shape.two
    have mem : ∀ j, j < p.nPoints → valueAt c j ∈ c.controls := by
      intro j hj
      have : c.controls[j]? = some (valueAt c j) := get_getD (by omega)
      exact List.mem_of_getElem? this
    exact hz c hc hk _ (mem i hi) _ (mem 0 (by omega))

/-! ## C09, C10: the lap-time report -/

/-- C09: on an increasing mesh, with positive time per metre at every node and `0 ≤ σ ≤ 1`, the
node times increase, start at the time of the first node, and the lap time is after the first
node's time; in a closed lap it is after the last node's time, in an open one it is the last. -/
theorem C09_times_increase (lowest max : K) (v : Vehicle K) (r : Request K) (p : Problem K) (ini : Initial K)
    (h : Run lowest max v r p ini) (hs : p.s.Pairwise (· < ·)) (st : Loaded K) (hst : FitsProblem p st)
    (node : Nat → Node K) (hn : EvaluatedNodes v p st node) (h0 : 0 ≤ p.opts.sigma) (h1 : p.opts.sigma ≤ 1)
    (hpos : ∀ i, i < p.nPoints → 0 < dtds v (node i).eq) (row0 : Row K) (hr : st.inputs[0]? = some row0) :
    ∃ times lap last, report v p st = .ok (times, lap) ∧ times.length = p.nPoints ∧
      times.Pairwise (· < ·) ∧ times.head? = some (row0 v.iTime) ∧ times.getLast? = some last ∧
      row0 v.iTime < lap ∧ (p.isClosed = true → last < lap) ∧ (p.isClosed = false → lap = last) := by
  have hev := evalNodes_eq h.shape h.consistent h.defaults h.covers hst hn
  have h2 := h.shape.two
  have hterm : ∀ e, e < p.nElements → 0 < elementLength v p node e *
      ((1 - p.opts.sigma) * dtds v (node e).eq + p.opts.sigma * dtds v (node (rightNode p e)).eq) := by
    intro e he
    have hl := elementLength_pos h.shape hn hs h.closedEnd he
    have ha := hpos e (by have := h.shape.elements; omega)
    have hb := hpos _ (rightNode_lt h.shape e)
    apply mul_pos hl
    rcases h0.eq_or_lt with hz | hz
    · rw [← hz]; simpa using ha
    · have : 0 ≤ (1 - p.opts.sigma) * dtds v (node e).eq := mul_nonneg (by linarith) ha.le
      have : 0 < p.opts.sigma * dtds v (node (rightNode p e)).eq := mul_pos hz hb
      linarith
  have hmono : ∀ i j, i < j → j ≤ p.nElements →
      quadratureTo v p node (fun nd => dtds v nd.eq) i < quadratureTo v p node (fun nd => dtds v nd.eq) j := by
    intro i j hij hj
    induction j with
    | zero => omega
    | succ j ih =>
      have e : quadratureTo v p node (fun nd => dtds v nd.eq) (j + 1) =
          quadratureTo v p node (fun nd => dtds v nd.eq) j + elementLength v p node j *
      ((1 - p.opts.sigma) * dtds v (node j).eq + p.opts.sigma * dtds v (node (rightNode p j)).eq) := by
        unfold quadratureTo; rw [Finset.sum_range_succ]
      have hj' := hterm j (by omega)
      rcases Nat.lt_succ_iff_lt_or_eq.1 hij with hlt | rfl
      · have := ih hlt (by omega); linarith
      · linarith
  have hel : p.nPoints - 1 ≤ p.nElements := by
    rw [h.shape.elements]; unfold firstNode; split <;> omega
  have hq0 : quadratureTo v p node (fun nd => dtds v nd.eq) 0 = 0 := by simp [quadratureTo]
  refine ⟨_, _, row0 v.iTime + quadratureTo v p node (fun nd => dtds v nd.eq) (p.nPoints - 1),
    report_eq h.shape hr hev, by simp, ?_, ?_, ?_, ?_, ?_, ?_⟩
  · rw [List.pairwise_iff_getElem]
    intro i j hi hj hij
    simp only [List.length_map, List.length_range] at hi hj
    simp only [List.getElem_map, List.getElem_range]
    have := hmono i j hij (by omega)
    linarith
  · rw [List.head?_eq_getElem?, get_map_range _ _ _ (by omega), hq0, add_zero]
  · rw [List.getLast?_eq_getElem?, List.length_map, List.length_range, get_map_range _ _ _ (by omega)]
  · have := hmono 0 p.nElements (by omega) le_rfl
    unfold quadrature
    linarith
  · intro hc
    have he : p.nElements = p.nPoints := by rw [h.shape.elements, hc]; rfl
    have := hmono (p.nPoints - 1) p.nElements (by omega) le_rfl
    unfold quadrature
    linarith
  · intro hc
    have he : p.nElements = p.nPoints - 1 := by rw [h.shape.elements, hc]; rfl
    unfold quadrature
    rw [he]

omit [IsStrictOrderedRing K] in
/-- C10: with the same time per metre `w` at every node, the lap time is `w` times the distance:
the track length for a closed lap, the distance between first and last node for an open one. -/
theorem C10_constant_speed (lowest max : K) (v : Vehicle K) (r : Request K) (p : Problem K) (ini : Initial K)
    (h : Run lowest max v r p ini) (st : Loaded K) (hst : FitsProblem p st)
    (node : Nat → Node K) (hn : EvaluatedNodes v p st node) (w : K)
    (hw : ∀ i, i < p.nPoints → dtds v (node i).eq = w) (row0 : Row K) (hr : st.inputs[0]? = some row0)
    (first last : K) (hf : p.s.head? = some first) (hl : p.s.getLast? = some last) :
    ∃ times, report v p st = .ok (times, row0 v.iTime +
      w * (if p.isClosed then v.trackLength else last - first)) := by
  have hev := evalNodes_eq h.shape h.consistent h.defaults h.covers hst hn
  have h2 := h.shape.two
  refine ⟨(List.range p.nPoints).map fun i => row0 v.iTime + quadratureTo v p node (fun nd => dtds v nd.eq) i, ?_⟩
  rw [report_eq h.shape hr hev]
  congr 3
  have hterm : ∀ e, e < p.nElements → elementLength v p node e *
      ((1 - p.opts.sigma) * dtds v (node e).eq + p.opts.sigma * dtds v (node (rightNode p e)).eq) =
      w * elementLength v p node e := by
    intro e he
    rw [hw e (by have := h.shape.elements; omega), hw _ (rightNode_lt h.shape e)]; ring
  have hsum : ∀ n, n < p.nPoints → ∑ e ∈ Finset.range n, elementLength v p node e = (node n).s - (node 0).s := by
    intro n
    induction n with
    | zero => simp
    | succ n ih =>
      intro hlt
      rw [Finset.sum_range_succ, ih (by omega), elementLength, if_pos hlt]; ring
  have hfs : (node 0).s = first := by
    have := node_s hn (i := 0) (by omega)
    rw [List.head?_eq_getElem?, this] at hf; simpa using hf
  have hls : (node (p.nPoints - 1)).s = last := by
    have := node_s hn (i := p.nPoints - 1) (by omega)
    rw [List.getLast?_eq_getElem?, h.shape.s, this] at hl; simpa using hl
  unfold quadrature quadratureTo
  rw [Finset.sum_congr rfl (fun e he => hterm e (by simpa using he)), ← Finset.mul_sum]
  congr 1
  cases hc : p.isClosed
  · rw [show p.nElements = p.nPoints - 1 by rw [h.shape.elements, hc]; rfl, hsum _ (by omega), hfs, hls]; rfl
  · have e1 : p.nElements = (p.nPoints - 1) + 1 := by rw [h.shape.elements, hc]; simp [firstNode]; omega
    have hl' : ¬ (p.nPoints - 1 + 1 < p.nPoints) := by omega
    rw [e1, Finset.sum_range_succ, hsum _ (by omega), elementLength, if_neg hl']
    have g := (prepare_ok h.prepared).2
    have : first = 0 := by
      have hs := g.s
      rw [if_pos (g.isClosed ▸ hc)] at hs
      rw [hs] at hf; simpa using hf.symm
    rw [hfs, this]; simp

/-! ## C08: penalty of the derivative form -/

omit [IsStrictOrderedRing K] in
/-- C08 (partial): the derivative cost is the lap time plus the penalty on the rates at both ends
of every element, provided that every rate has the same square at the start of all inner elements
(for example on two-node meshes, or constant rates). Missing: other rates (false, see below). -/
theorem C08_rate_penalty_partial (lowest max : K) (v : Vehicle K) (r : Request K) (p : Problem K) (ini : Initial K)
    (h : Run lowest max v r p ini) (hd : r.isDirect = false) (st : Loaded K) (hst : FitsProblem p st) (x : List K)
    (hx : x.length = nVariables v p) :
    ∃ cost c st' row0 times lap node, fgDerivative v p ini st x = .ok (cost :: c, st') ∧
      EvaluatedNodes v p st' node ∧ st'.inputs[0]? = some row0 ∧ report v p st' = .ok (times, lap) ∧
      ((∀ c ∈ st'.controls, c.kind = .fullMesh → ∀ e, e + 1 < p.nPoints → rateAt c e ^ 2 = rateAt c 0 ^ 2) →
        cost = lap - row0 v.iTime + overFullMesh (ratePenalty v p node) st'.controls) := by
  obtain ⟨st', node, c, h1, h2, h3, h4, _⟩ := h.derivative hd st hst x hx
  obtain ⟨row0, h0⟩ := h.row0 h2.fits
  refine ⟨_, c, st', row0, _, _, node, h1, h4, h0, report_eq h.shape h0 h3, ?_⟩
  intro hsq
  have : overFullMesh (fun c => ∑ e ∈ Finset.range p.nElements, codedRatePenalty v p node c e) st'.controls =
      overFullMesh (ratePenalty v p node) st'.controls := by
    apply overFullMesh_congr
    intro c hc hk
    unfold ratePenalty
    apply Finset.sum_congr rfl
    intro e _
    unfold codedRatePenalty
    split
    · rename_i he; rw [hsq c hc hk e he]
    · rfl
  rw [this]; ring

omit [IsStrictOrderedRing K] in
/-- C08: what the derivative form computes instead: the rate at the start of every inner element
is replaced by the rate at the first node. -/
theorem C08_actual_penalty (lowest max : K) (v : Vehicle K) (r : Request K) (p : Problem K) (ini : Initial K)
    (h : Run lowest max v r p ini) (hd : r.isDirect = false) (st : Loaded K) (hst : FitsProblem p st) (x : List K)
    (hx : x.length = nVariables v p) :
    ∃ cost c st' row0 times lap node, fgDerivative v p ini st x = .ok (cost :: c, st') ∧
      EvaluatedNodes v p st' node ∧ st'.inputs[0]? = some row0 ∧ report v p st' = .ok (times, lap) ∧
      cost = lap - row0 v.iTime + overFullMesh (fun c => ∑ e ∈ Finset.range p.nElements,
        1 / 2 * c.dissipation * (rateAt c (if e + 1 < p.nPoints then 0 else e) ^ 2
          + rateAt c (rightNode p e) ^ 2) * elementLength v p node e) st'.controls := by
  obtain ⟨st', node, c, h1, h2, h3, h4, _⟩ := h.derivative hd st hst x hx
  obtain ⟨row0, h0⟩ := h.row0 h2.fits
  refine ⟨_, c, st', row0, _, _, node, h1, h4, h0, report_eq h.shape h0 h3, ?_⟩
  simp only [codedRatePenalty]
  ring

/-! ## C11: integral quantities -/

/-- C11 (partial): for open laps or `σ = 1/2`, a constrained integral quantity whose value is one
at every node (so that its integrand is the time per metre) equals the lap time, counted from
the first node. Missing: closed laps with other `σ` (false, see below). -/
theorem C11_same_quadrature_partial (lowest max : K) (v : Vehicle K) (r : Request K) (p : Problem K)
    (ini : Initial K) (h : Run lowest max v r p ini) (hd : r.isDirect = true)
    (hσ : p.isClosed = false ∨ p.opts.sigma = 1 / 2) (st : Loaded K)
    (hst : FitsProblem p st) (x : List K) (hx : x.length = nVariables v p) :
    ∃ cost c st' row0 times lap node, fgDirect v p ini st x = .ok (cost :: c, st') ∧
      EvaluatedNodes v p st' node ∧ st'.inputs[0]? = some row0 ∧ report v p st' = .ok (times, lap) ∧
      ∀ (k : Nat) (q : Quantity K), p.quantities[k]? = some q → q.restrict = true →
        (∀ i, i < p.nPoints → (node i).eq.integrals k = 1) →
        c[p.nElements * rowsPerElement v p + nConstrained (p.quantities.take k)]? = some (lap - row0 v.iTime) := by
  obtain ⟨st', node, c, h1, h2, h3, h4, h5⟩ := h.direct hd st hst x hx
  obtain ⟨row0, h0⟩ := h.row0 h2.fits
  refine ⟨_, c, st', row0, _, _, node, h1, h4, h0, report_eq h.shape h0 h3, ?_⟩
  intro k q hk hr hone
  rw [h5.quantities k q hk hr]
  congr 1
  rw [add_sub_cancel_left]
  unfold quadrature quadratureTo codedIntegral
  apply Finset.sum_congr rfl
  intro e he
  have he' : e < p.nElements := by simpa using he
  have hep : e < p.nPoints := by have := h.shape.elements; omega
  unfold integrand
  rw [hone e hep, hone _ (rightNode_lt h.shape e)]
  split
  · ring
  · rename_i hlast
    rcases hσ with hc | hs
    · exfalso
      have : p.nElements = p.nPoints - 1 := by rw [h.shape.elements, hc]; rfl
      omega
    · rw [hs]; ring

omit [IsStrictOrderedRing K] in
/-- C11, what is computed in a closed lap: the closing element weighs its two ends the other way
round, so the quantity of value one differs from the lap time by the last term. -/
theorem C11_actual_closed (lowest max : K) (v : Vehicle K) (r : Request K) (p : Problem K)
    (ini : Initial K) (h : Run lowest max v r p ini) (hd : r.isDirect = true) (hc : p.isClosed = true)
    (st : Loaded K) (hst : FitsProblem p st) (x : List K) (hx : x.length = nVariables v p) :
    ∃ cost c st' row0 times lap node, fgDirect v p ini st x = .ok (cost :: c, st') ∧
      EvaluatedNodes v p st' node ∧ st'.inputs[0]? = some row0 ∧ report v p st' = .ok (times, lap) ∧
      ∀ (k : Nat) (q : Quantity K), p.quantities[k]? = some q → q.restrict = true →
        (∀ i, i < p.nPoints → (node i).eq.integrals k = 1) →
        c[p.nElements * rowsPerElement v p + nConstrained (p.quantities.take k)]? = some (lap - row0 v.iTime +
          (v.trackLength - (node (p.nPoints - 1)).s) * (2 * p.opts.sigma - 1) *
            (dtds v (node (p.nPoints - 1)).eq - dtds v (node 0).eq)) := by
  obtain ⟨st', node, c, h1, h2, h3, h4, h5⟩ := h.direct hd st hst x hx
  obtain ⟨row0, h0⟩ := h.row0 h2.fits
  refine ⟨_, c, st', row0, _, _, node, h1, h4, h0, report_eq h.shape h0 h3, ?_⟩
  intro k q hk hr hone
  rw [h5.quantities k q hk hr]
  congr 1
  rw [add_sub_cancel_left]
  have h2p := h.shape.two
  have e1 : p.nElements = (p.nPoints - 1) + 1 := by rw [h.shape.elements, hc]; simp [firstNode]; omega
  unfold quadrature quadratureTo codedIntegral
  rw [e1, Finset.sum_range_succ, Finset.sum_range_succ]
  have hl' : ¬ (p.nPoints - 1 + 1 < p.nPoints) := by omega
  have hr0 : rightNode p (p.nPoints - 1) = 0 := by simp [rightNode, hl']
  have hlen : elementLength v p node (p.nPoints - 1) = v.trackLength - (node (p.nPoints - 1)).s := by
    simp [elementLength, hl']
  have hsum : ∀ e ∈ Finset.range (p.nPoints - 1), elementLength v p node e *
      (if e + 1 < p.nPoints then
        (1 - p.opts.sigma) * integrand v k (node e) + p.opts.sigma * integrand v k (node (rightNode p e))
      else (1 - p.opts.sigma) * integrand v k (node (rightNode p e)) + p.opts.sigma * integrand v k (node e)) =
      elementLength v p node e *
        ((1 - p.opts.sigma) * dtds v (node e).eq + p.opts.sigma * dtds v (node (rightNode p e)).eq) := by
    intro e he
    have he' : e < p.nPoints - 1 := by simpa using he
    rw [if_pos (by omega), integrand, integrand, hone e (by omega), hone _ (rightNode_lt h.shape e), mul_one, mul_one]
  rw [Finset.sum_congr rfl hsum, if_neg hl', hr0, hlen, integrand, integrand, hone _ (by omega), hone _ (by omega)]
  ring

/-! ## C12: zero defects -/

omit [LinearOrder K] [IsStrictOrderedRing K] in
/-- C12: the time rows of `RowsAre` vanish exactly when every integrated state follows the
discrete equation over every element. -/
theorem C12_zero_defects (v : Vehicle K) (p : Problem K) (controls : List (CV K)) (node : Nat → Node K)
    (value : Nat → K) (c : List K) (hc : RowsAre v p controls node value c) :
    (∀ e k, e < p.nElements → k < v.timeIds.length → c[e * rowsPerElement v p + k]? = some 0) ↔
      ∀ e q, e < p.nElements → q ∈ v.timeIds →
        (node (rightNode p e)).eq.states q = (node e).eq.states q + elementLength v p node e *
          ((1 - p.opts.sigma) * (node e).eq.dstates q + p.opts.sigma * (node (rightNode p e)).eq.dstates q) := by
  constructor
  · intro h e q he hq
    obtain ⟨k, hk, rfl⟩ := List.getElem_of_mem hq
    have h1 := hc.time e k _ he (List.getElem?_eq_getElem hk)
    rw [h e k he hk, Option.some.injEq] at h1
    rw [eq_comm, ← sub_eq_zero, ← neg_eq_zero, h1]; ring
  · intro h e k he hk
    rw [hc.time e k _ he (List.getElem?_eq_getElem hk), h e _ he (List.getElem_mem hk)]
    congr 1; ring

omit [LinearOrder K] [IsStrictOrderedRing K] in
theorem zero_rows {v : Vehicle K} (heq : v.timeIds.length + v.algIds.length = v.nInputs - 1) {p : Problem K}
    {controls : List (CV K)} {node : Nat → Node K} {value : Nat → K} {c : List K}
    (h3 : RowsAre v p controls node value c) :
    ((∀ e k, e < p.nElements → k < v.nInputs - 1 → c[e * rowsPerElement v p + k]? = some 0) ↔
        (∀ e q, e < p.nElements → q ∈ v.timeIds →
          (node (rightNode p e)).eq.states q = (node e).eq.states q + elementLength v p node e *
            ((1 - p.opts.sigma) * (node e).eq.dstates q + p.opts.sigma * (node (rightNode p e)).eq.dstates q)) ∧
        (∀ e q, e < p.nElements → q ∈ v.algIds →
          (node (rightNode p e)).eq.dstates q / dtds v (node (rightNode p e)).eq = 0)) := by
  rw [← C12_zero_defects v p _ node _ c h3]
  constructor
  · intro hz
    refine ⟨fun e k he hk => hz e k he (by omega), ?_⟩
    intro e q he hq
    obtain ⟨k, hk, rfl⟩ := List.getElem_of_mem hq
    have h4 := h3.algebraic e k _ he (List.getElem?_eq_getElem hk)
    rw [Nat.add_assoc, hz e _ he (by omega), Option.some.injEq] at h4
    exact h4.symm
  · rintro ⟨ha, hb⟩ e k he hk
    by_cases hkt : k < v.timeIds.length
    · exact ha e k he hkt
    · have hka : k - v.timeIds.length < v.algIds.length := by omega
      have h4 := h3.algebraic e (k - v.timeIds.length) _ he (List.getElem?_eq_getElem hka)
      rw [hb e _ he (List.getElem_mem hka)] at h4
      rw [← h4]
      congr 1; omega

omit [IsStrictOrderedRing K] in
/-- C12, whole: the constraint vector of a direct evaluation within its bounds on the equality rows
means that the discrete equations of motion and the algebraic equations hold at every element. -/
theorem C12_direct (lowest max : K) (v : Vehicle K) (r : Request K) (p : Problem K) (ini : Initial K)
    (h : Run lowest max v r p ini) (hd : r.isDirect = true) (st : Loaded K) (hst : FitsProblem p st) (x : List K)
    (hx : x.length = nVariables v p) :
    ∃ cost c st' node, fgDirect v p ini st x = .ok (cost :: c, st') ∧ EvaluatedNodes v p st' node ∧
      ((∀ e k, e < p.nElements → k < v.nInputs - 1 → c[e * rowsPerElement v p + k]? = some 0) ↔
        (∀ e q, e < p.nElements → q ∈ v.timeIds →
          (node (rightNode p e)).eq.states q = (node e).eq.states q + elementLength v p node e *
            ((1 - p.opts.sigma) * (node e).eq.dstates q + p.opts.sigma * (node (rightNode p e)).eq.dstates q)) ∧
        (∀ e q, e < p.nElements → q ∈ v.algIds →
          (node (rightNode p e)).eq.dstates q / dtds v (node (rightNode p e)).eq = 0)) := by
  obtain ⟨cost, c, st', node, h1, _, h2, h3⟩ := C64_rows_direct lowest max v r p ini h hd st hst x hx
  exact ⟨cost, c, st', node, h1, h2, zero_rows h.wf.equations h3⟩

omit [IsStrictOrderedRing K] in
/-- C12 for the derivative form: the equality rows of every element (including those of the
full-mesh controls) vanish exactly when the discrete equations hold and every full-mesh control
is the integral of its rate. -/
theorem C12_derivative (lowest max : K) (v : Vehicle K) (r : Request K) (p : Problem K) (ini : Initial K)
    (h : Run lowest max v r p ini) (hd : r.isDirect = false) (st : Loaded K) (hst : FitsProblem p st) (x : List K)
    (hx : x.length = nVariables v p) :
    ∃ cost c st' node, fgDerivative v p ini st x = .ok (cost :: c, st') ∧ EvaluatedNodes v p st' node ∧
      ((∀ e k, e < p.nElements → k < v.nInputs - 1 → c[e * rowsPerElement v p + k]? = some 0) ↔
        (∀ e q, e < p.nElements → q ∈ v.timeIds →
          (node (rightNode p e)).eq.states q = (node e).eq.states q + elementLength v p node e *
            ((1 - p.opts.sigma) * (node e).eq.dstates q + p.opts.sigma * (node (rightNode p e)).eq.dstates q)) ∧
        (∀ e q, e < p.nElements → q ∈ v.algIds →
          (node (rightNode p e)).eq.dstates q / dtds v (node (rightNode p e)).eq = 0)) ∧
      (∀ (e j : Nat) (cv : CV K), e < p.nElements → st'.controls[j]? = some cv → cv.kind = .fullMesh →
        (c[e * rowsPerElement v p + (v.nInputs - 1 + v.nExtra) + nFullMesh (st'.controls.take j)]? = some 0 ↔
          valueAt cv (rightNode p e) = valueAt cv e + elementLength v p node e *
            ((1 - p.opts.sigma) * rateAt cv e * dtds v (node e).eq
              + p.opts.sigma * rateAt cv (rightNode p e) * dtds v (node (rightNode p e)).eq))) := by
  obtain ⟨cost, c, st', node, h1, _, h2, h3⟩ := C64_rows_derivative lowest max v r p ini h hd st hst x hx
  refine ⟨cost, c, st', node, h1, h2, zero_rows h.wf.equations h3, ?_⟩
  intro e j cv he hc hk
  rw [h3.control (h.isDirect.trans hd) e j cv he hc hk, Option.some.injEq]
  constructor <;> intro hh
  · rw [eq_comm, ← sub_eq_zero, ← neg_eq_zero, ← hh]; ring
  · rw [hh]; ring

end ordered

/-! ## Concrete cases -/

theorem exCovers (closed : Bool) {p : Problem ℚ} (hp : prepare (-10 ^ 9) (10 ^ 9) exVehicle (exRequest closed) = .ok p) :
    HypermeshCovers p := by
  have g := (prepare_ok hp).2
  intro c hc hk
  rw [g.controls] at hc
  have hs : p.s = [0, 10, 20] := by rw [g.s]; cases closed <;> rfl
  simp only [exRequest, List.map_cons, List.map_nil, List.mem_cons, List.not_mem_nil, or_false] at hc
  rcases hc with rfl | rfl | rfl | rfl <;>
    try simp [createDontOptimize, createConstant, createFullMesh, meaningful] at hk
  refine ⟨by simp [createHypermesh, meaningful], 0, rfl, ?_⟩
  rw [hs]; simp

theorem exCoversD (closed : Bool) {p : Problem ℚ}
    (hp : prepare (-10 ^ 9) (10 ^ 9) exVehicle (exRequestD closed) = .ok p) : HypermeshCovers p := by
  have g := (prepare_ok hp).2
  intro c hc hk
  rw [g.controls] at hc
  have hs : p.s = [0, 10, 20] := by rw [g.s]; cases closed <;> rfl
  simp only [exRequestD, List.map_cons, List.map_nil, List.mem_cons, List.not_mem_nil, or_false] at hc
  rcases hc with rfl | rfl | rfl | rfl <;>
    try simp [createDontOptimize, createFullMeshD, meaningful] at hk
  refine ⟨by simp [createHypermesh, meaningful], 0, rfl, ?_⟩
  rw [hs]; simp

theorem exRun (closed : Bool) : ∃ p ini, Run (-10 ^ 9) (10 ^ 9) exVehicle (exRequest closed) p ini := by
  obtain ⟨p, hp⟩ := (C13_accepted_iff (-10 ^ 9) (10 ^ 9) _ _).2 (exRequest_acceptable closed)
  obtain ⟨ini, hini⟩ := exInitial closed hp
  exact ⟨p, ini, exVehicle_wf, hp, hini, exCovers closed hp⟩

theorem exRunD (closed : Bool) : ∃ p ini, Run (-10 ^ 9) (10 ^ 9) exVehicle (exRequestD closed) p ini := by
  obtain ⟨p, hp⟩ := (C13_accepted_iff (-10 ^ 9) (10 ^ 9) _ _).2 (exRequestD_acceptable closed)
  obtain ⟨ini, hini⟩ := exInitialD closed hp
  exact ⟨p, ini, exVehicle_wf, hp, hini, exCoversD closed hp⟩

/-- C08 is false: an accepted derivative-form request whose cost, at its own starting point, is not
the lap time plus the penalty on the rates. -/
theorem C08_false : ∃ (v : Vehicle ℚ) (r : Request ℚ) (p : Problem ℚ) (ini : Initial ℚ) (es : List (Entry ℚ))
    (cost : ℚ) (c : List ℚ) (st' : Loaded ℚ) (row0 : Row ℚ) (times : List ℚ) (lap : ℚ) (node : Nat → Node ℚ),
    Run (-10 ^ 9) (10 ^ 9) v r p ini ∧ r.isDirect = false ∧ packDerivative v p (-10 ^ 9) (10 ^ 9) = .ok es ∧
    fgDerivative v p ini (initialLoaded p) (es.map Entry.start) = .ok (cost :: c, st') ∧
    EvaluatedNodes v p st' node ∧ st'.inputs[0]? = some row0 ∧ report v p st' = .ok (times, lap) ∧
    cost ≠ lap - row0 v.iTime + overFullMesh (ratePenalty v p node) st'.controls := by
  obtain ⟨p, ini, h⟩ := exRunD false
  have hini : initialDerivative exVehicle p = .ok ini := h.initial
  have g := (prepare_ok h.prepared).2
  obtain ⟨es, h1, h2⟩ := packDerivative_layout exVehicle p h.shape g.isDirect
    (ratesBounded h.prepared (exRequestD_ratesBounded false)) h.wf.lateral
    (noConstant h.prepared (exRequestD_noConstant false)) (-10 ^ 9) (10 ^ 9)
  obtain ⟨st', node, c, k1, k2, k3, k4, _⟩ := h.derivative rfl (initialLoaded p) (C01_fresh_fits p)
    (es.map Entry.start) (by simpa using h2.length)
  obtain ⟨_, i2, i3⟩ := initialDerivative_spec h.defaults hini
  obtain ⟨_, h6, _⟩ := k2.same h.shape (h2.holds h.shape) (fun _ => i2)
    (fun _ c cv hc hk => ⟨(i3 c cv hc hk).1, fun _ => (i3 c cv hc hk).2⟩)
  obtain ⟨row0, h0⟩ := h.row0 k2.fits
  refine ⟨exVehicle, exRequestD false, p, ini, es, _, c, st', row0, _, _, node, h, rfl, h1, k1, k4, h0,
    report_eq h.shape h0 k3, ?_⟩
  have hn : p.nPoints = 3 := g.nPoints
  have he : p.nElements = 2 := g.nElements
  have hs : p.s = [0, 10, 20] := g.s
  have s0 : (node 0).s = 0 := by have := node_s k4 (i := 0) (by omega); rw [hs] at this; simpa using this.symm
  have s1 : (node 1).s = 10 := by have := node_s k4 (i := 1) (by omega); rw [hs] at this; simpa using this.symm
  have s2 : (node 2).s = 20 := by have := node_s k4 (i := 2) (by omega); rw [hs] at this; simpa using this.symm
  rw [h6, g.controls]
  simp only [exRequestD, List.map_cons, List.map_nil, meaningful, createDontOptimize, createHypermesh,
    createFullMeshD, overFullMesh, codedRatePenalty, he, hn, Finset.sum_range_succ, Finset.sum_range_zero,
    rightNode, elementLength, rateAt]
  simp [s0, s1, s2, ratePenalty, he, hn, Finset.sum_range_succ, rightNode, elementLength, rateAt]
  norm_num

/-- A vehicle whose time per metre grows along the track, with a quantity of value one. -/
def exVehicleOne : Vehicle ℚ :=
  { exVehicle with eval := fun row _ s => ⟨row, fun _ => s + 1, row, fun _ => 1⟩ }

/-- A closed lap with `σ = 1`. -/
def exRequestOne : Request ℚ := { exRequest true with opts := { exOptions with sigma := 1 } }

theorem exRunEval (ev : Row ℚ → List ℚ → ℚ → Eqs ℚ) :
    ∃ p ini, Run (-10 ^ 9) (10 ^ 9) { exVehicle with eval := ev } exRequestOne p ini := by
  have hacc : Acceptable { exVehicle with eval := ev } exRequestOne := by
    have h := exRequest_acceptable true
    exact ⟨h.two, h.closedEnds, h.openEnds, h.inputs, h.consistent, h.full, h.names, h.ready⟩
  obtain ⟨p, hp⟩ := (C13_accepted_iff (-10 ^ 9) (10 ^ 9) _ _).2 hacc
  have g := (prepare_ok hp).2
  have hs : p.s = [0, 10, 20] := g.s
  refine ⟨p, ⟨fun j => j, [(7, 0), (3, 0), (1, 0), (4, 0)]⟩, ⟨exVehicle_wf.1, exVehicle_wf.2, rfl⟩, hp, ?_, ?_⟩
  · have e : controlArrayAtS ((exRequest true).controls.map meaningful) exVehicle.controlsDef 0 0 =
      .ok [7, 3, 1, 4] := by decide +kernel
    rw [show exRequestOne.isDirect = true from rfl, if_pos rfl, initialDirect, hs, g.inputs, g.controls]
    simp only [idx, List.getElem?_cons_zero, Res.bind]
    rw [show controlArrayAtS (exRequestOne.controls.map meaningful) exVehicle.controlsDef 0 0 = _ from e]
    rfl
  · intro c hc hk
    rw [g.controls] at hc
    simp only [exRequestOne, exRequest, List.map_cons, List.map_nil, List.mem_cons, List.not_mem_nil, or_false] at hc
    rcases hc with rfl | rfl | rfl | rfl <;>
      try simp [createDontOptimize, createConstant, createFullMesh, meaningful] at hk
    refine ⟨by simp [createHypermesh, meaningful], 0, rfl, ?_⟩
    rw [hs]; simp

theorem exRunOne : ∃ p ini, Run (-10 ^ 9) (10 ^ 9) exVehicleOne exRequestOne p ini := exRunEval _

/-- C11 is false: a closed lap whose constrained quantity of value one is not the lap time. -/
theorem C11_false : ∃ (v : Vehicle ℚ) (r : Request ℚ) (p : Problem ℚ) (ini : Initial ℚ) (x : List ℚ)
    (cost : ℚ) (c : List ℚ) (st' : Loaded ℚ) (row0 : Row ℚ) (times : List ℚ) (lap a : ℚ) (node : Nat → Node ℚ)
    (q : Quantity ℚ),
    Run (-10 ^ 9) (10 ^ 9) v r p ini ∧ r.isDirect = true ∧ x.length = nVariables v p ∧
    fgDirect v p ini (initialLoaded p) x = .ok (cost :: c, st') ∧
    EvaluatedNodes v p st' node ∧ st'.inputs[0]? = some row0 ∧ report v p st' = .ok (times, lap) ∧
    p.quantities[1]? = some q ∧ q.restrict = true ∧ (∀ i, i < p.nPoints → (node i).eq.integrals 1 = 1) ∧
    c[p.nElements * rowsPerElement v p + nConstrained (p.quantities.take 1)]? = some a ∧
    a ≠ lap - row0 v.iTime := by
  obtain ⟨p, ini, h⟩ := exRunOne
  have g := (prepare_ok h.prepared).2
  obtain ⟨cost, c, st', row0, times, lap, node, k1, k2, k3, k4, k5⟩ := C11_actual_closed _ _ _ _ p ini h rfl g.isClosed
    (initialLoaded p) (C01_fresh_fits p) (List.replicate (nVariables exVehicleOne p) 0) (by simp)
  obtain ⟨q, q1, q2, _⟩ := C66_integral_quantities _ _ _ _ p h.prepared (by decide) 1 ['b'] rfl
  have qr : q.restrict = true := q2.2 ⟨1, 6, by simp [exRequestOne, exRequest, exOptions]⟩
  have hev : ∀ i, i < p.nPoints → (node i).eq.integrals 1 = 1 ∧ dtds exVehicleOne (node i).eq = (node i).s + 1 := by
    intro i hi
    obtain ⟨row, si, u, _, _, _, _, e⟩ := k2 i hi
    rw [e]; exact ⟨rfl, rfl⟩
  refine ⟨exVehicleOne, exRequestOne, p, ini, _, cost, c, st', row0, times, lap, _, node, q, h, rfl, by simp, k1, k2,
    k3, k4, q1, qr, fun i hi => (hev i hi).1, k5 1 q q1 qr (fun i hi => (hev i hi).1), ?_⟩
  have hn : p.nPoints = 3 := g.nPoints
  have hs : p.s = [0, 10, 20] := g.s
  have s0 : (node 0).s = 0 := by have := node_s k2 (i := 0) (by omega); rw [hs] at this; simpa using this.symm
  have s2 : (node 2).s = 20 := by have := node_s k2 (i := 2) (by omega); rw [hs] at this; simpa using this.symm
  have hσ : p.opts.sigma = 1 := by rw [g.opts]; rfl
  rw [hn, (hev 0 (by omega)).2, (hev 2 (by omega)).2, s0, s2, hσ]
  norm_num [exVehicleOne, exVehicle]

/-- C03, C06, C12, C64 on the concrete direct request: three (closed) or two (open) elements of four
rows, and one constrained quantity. -/
example (closed : Bool) : ∃ p ini fg st', fgDirect exVehicle p ini (initialLoaded p)
    (List.replicate (if closed then 12 else 9) 1) = .ok (fg, st') ∧ fg.length = if closed then 14 else 10 := by
  obtain ⟨p, ini, h⟩ := exRun closed
  have g := (prepare_ok h.prepared).2
  have hnv : nVariables exVehicle p = if closed then 12 else 9 := by
    rw [nVariables, nVariablesPerPoint, g.nElements, g.stats, g.isDirect]; cases closed <;> rfl
  obtain ⟨q, q1, q2, _⟩ := C66_integral_quantities _ _ _ _ p h.prepared (by decide) 1 ['b'] rfl
  obtain ⟨q', q1', q2', _⟩ := C66_integral_quantities _ _ _ _ p h.prepared (by decide) 0 ['a'] rfl
  have qr : q.restrict = true := q2.2 ⟨1, 6, by simp [exRequest, exOptions]⟩
  have qr' : q'.restrict = false := by
    by_contra hh
    obtain ⟨_, _, hm⟩ := q2'.1 (by simpa using hh)
    simp [exRequest, exOptions] at hm
  have hq : p.quantities = [q', q] := by
    apply List.ext_getElem?
    intro i
    match i with
    | 0 => exact q1'
    | 1 => exact q1
    | n + 2 => rw [List.getElem?_eq_none (by rw [g.nQuantities]; simp [exVehicle])]; rfl
  obtain ⟨fg, st', b, h1, h2, _, _, h5⟩ := C03_direct_constraints _ _ _ _ p ini h rfl (initialLoaded p)
    (C01_fresh_fits p) (List.replicate (if closed then 12 else 9) 1) (by simp [hnv])
  refine ⟨p, ini, fg, st', h1, ?_⟩
  rw [h2, h5, expectedConstraints, hq]
  cases closed <;> simp [exRequest, exVehicle, qr, qr', createDontOptimize, createConstant, createHypermesh,
    createFullMesh]

/-- C05 on the concrete derivative-form request. -/
example (closed : Bool) : ∃ p ini fg st', fgDerivative exVehicle p ini (initialLoaded p)
    (List.replicate (if closed then 20 else 14) 1) = .ok (fg, st') ∧ fg.length = 1 + nConstraints exVehicle p := by
  obtain ⟨p, ini, h⟩ := exRunD closed
  have g := (prepare_ok h.prepared).2
  have hnv : nVariables exVehicle p = if closed then 20 else 14 := by
    rw [nVariables, nVariablesPerPoint, g.nElements, g.stats, g.isDirect]; cases closed <;> rfl
  obtain ⟨fg, st', b, h1, h2, _⟩ := C05_derivative_constraints _ _ _ _ p ini h rfl (initialLoaded p)
    (C01_fresh_fits p) (List.replicate (if closed then 20 else 14) 1) (by simp [hnv])
  exact ⟨p, ini, fg, st', h1, h2⟩

/-- The mesh of the concrete request increases (C06, C07, C09). -/
example (closed : Bool) : ∃ p ini, Run (-10 ^ 9) (10 ^ 9) exVehicle (exRequest closed) p ini ∧
    p.s.Pairwise (· < ·) ∧ (∀ c ∈ (exRequest closed).controls, c.kind = .fullMesh → 0 < c.dissipation) := by
  obtain ⟨p, ini, h⟩ := exRun closed
  have g := (prepare_ok h.prepared).2
  have hs : p.s = [0, 10, 20] := by rw [g.s]; cases closed <;> rfl
  refine ⟨p, ini, h, ?_, ?_⟩
  · rw [hs]; norm_num
  · intro c hc hk
    simp only [exRequest, List.mem_cons, List.not_mem_nil, or_false] at hc
    rcases hc with rfl | rfl | rfl | rfl <;>
      try simp [createDontOptimize, createConstant, createHypermesh] at hk
    norm_num [createFullMesh]

/-- C09 on a concrete run: the vehicle with time per metre `s + 1`. -/
example : ∃ (p : Problem ℚ) (st : Loaded ℚ) (times : List ℚ) (lap : ℚ),
    report exVehicleOne p st = .ok (times, lap) ∧ times.Pairwise (· < ·) ∧ times.length = 3 ∧ 0 < lap := by
  obtain ⟨p, ini, h⟩ := exRunOne
  have g := (prepare_ok h.prepared).2
  obtain ⟨cost, c, st', node, k1, kd, k2, _⟩ := C64_rows_direct _ _ _ _ p ini h rfl
    (initialLoaded p) (C01_fresh_fits p) (List.replicate (nVariables exVehicleOne p) 0) (by simp)
  obtain ⟨row0, h0⟩ := h.row0 kd.fits
  have hs : p.s = [0, 10, 20] := g.s
  have hσ : p.opts.sigma = 1 := by rw [g.opts]; rfl
  have hn : p.nPoints = 3 := g.nPoints
  have hev : ∀ i, i < p.nPoints → dtds exVehicleOne (node i).eq = (node i).s + 1 := by
    intro i hi
    obtain ⟨row, si, u, _, _, _, _, e⟩ := k2 i hi
    rw [e]; rfl
  have hpos : ∀ i, i < p.nPoints → 0 < dtds exVehicleOne (node i).eq := by
    intro i hi
    rw [hev i hi]
    have hi' : i < 3 := by omega
    have := node_s k2 (i := i) hi
    rw [hs] at this
    interval_cases i <;> simp at this <;> rw [← this] <;> norm_num
  obtain ⟨times, lap, last, r1, r2, r3, r4, r5, r6, _⟩ := C09_times_increase _ _ _ _ p ini h (by rw [hs]; norm_num)
    st' kd.fits node k2 (by rw [hσ]; norm_num) (by rw [hσ]) hpos row0 h0
  refine ⟨p, st', times, lap, r1, r3, by rw [r2, hn], ?_⟩
  have ht := kd.time 0 (fun _ => 0) row0 ⟨by rw [g.isClosed]; exact Nat.zero_le _, by omega⟩
    (by simp [initialLoaded, hn]) h0
  rw [ht] at r6
  exact r6

/-- C10 on a concrete run: two seconds per metre on a closed track of 100 m. -/
example : ∃ (p : Problem ℚ) (st : Loaded ℚ) (times : List ℚ),
    report { exVehicle with eval := fun row _ _ => ⟨row, fun _ => 2, row, row⟩ } p st = .ok (times, 200) := by
  obtain ⟨p, ini, h⟩ := exRunEval fun row _ _ => ⟨row, fun _ => 2, row, row⟩
  have g := (prepare_ok h.prepared).2
  obtain ⟨cost, c, st', node, k1, kd, k2, _⟩ := C64_rows_direct _ _ _ _ p ini h rfl
    (initialLoaded p) (C01_fresh_fits p) (List.replicate (nVariables exVehicle p) 0) (by simp [nVariables, nVariablesPerPoint])
  obtain ⟨row0, h0⟩ := h.row0 kd.fits
  have hs : p.s = [0, 10, 20] := g.s
  have hn : p.nPoints = 3 := g.nPoints
  obtain ⟨times, ht⟩ := C10_constant_speed _ _ _ _ p ini h st' kd.fits node k2 2 (by
    intro i hi
    obtain ⟨row, si, u, _, _, _, _, e⟩ := k2 i hi
    rw [e]; rfl) row0 h0 0 20 (by rw [hs]; rfl) (by rw [hs]; rfl)
  refine ⟨p, st', times, ht.trans ?_⟩
  have h00 := kd.time 0 (fun _ => 0) row0 ⟨by rw [g.isClosed]; exact Nat.zero_le _, by omega⟩
    (by simp [initialLoaded, hn]) h0
  rw [h00, g.isClosed]
  simp only [exRequestOne, exRequest, exVehicle, if_true]
  norm_num

/-- C65: multipliers of the right and of a wrong size. -/
example : ∃ p, prepare (-10 ^ 9) (10 ^ 9) exVehicle
      { exRequest true with warm := some (List.replicate 12 0, List.replicate 12 0, List.replicate 13 0) } = .ok p ∧
    checkWarm exVehicle p = .ok () := by
  have hacc : Acceptable exVehicle
      { exRequest true with warm := some (List.replicate 12 0, List.replicate 12 0, List.replicate 13 0) } := by
    have h := exRequest_acceptable true
    exact ⟨h.two, h.closedEnds, h.openEnds, h.inputs, h.consistent, h.full, h.names, h.ready⟩
  obtain ⟨p, hp⟩ := (C13_accepted_iff (-10 ^ 9) (10 ^ 9) _ _).2 hacc
  refine ⟨p, hp, ?_⟩
  have g := (prepare_ok hp).2
  obtain ⟨q, q1, q2, _⟩ := C66_integral_quantities _ _ _ _ p hp (by decide) 1 ['b'] rfl
  obtain ⟨q', q1', q2', _⟩ := C66_integral_quantities _ _ _ _ p hp (by decide) 0 ['a'] rfl
  have qr : q.restrict = true := q2.2 ⟨1, 6, by simp [exRequest, exOptions]⟩
  have qr' : q'.restrict = false := by
    by_contra hh
    obtain ⟨_, _, hm⟩ := q2'.1 (by simpa using hh)
    simp [exRequest, exOptions] at hm
  have hq : p.quantities = [q', q] := by
    apply List.ext_getElem?
    intro i
    match i with
    | 0 => exact q1'
    | 1 => exact q1
    | n + 2 => rw [List.getElem?_eq_none (by rw [g.nQuantities]; simp [exVehicle])]; rfl
  obtain ⟨es, b, e1, e2, e3, _⟩ := C65_warm_start_direct _ _ _ _ exVehicle_wf rfl p hp _ _ _ rfl
  obtain ⟨es', f1, f2, f3⟩ := C02_direct_size _ _ _ _ exVehicle_wf rfl p hp
  obtain ⟨b', f4, f5, _⟩ := C64_constraint_bounds _ _ _ _ exVehicle_wf p hp
  rw [e1] at f1; rw [e2] at f4
  simp only [Res.ok.injEq] at f1 f4
  subst f1; subst f4
  have hl : es.length = 12 := f3.trans rfl
  have hb : b.length = 13 := by
    rw [f5, nConstraints_eq hp, expectedConstraints, hq]
    simp [exRequest, exVehicle, qr, qr', createDontOptimize, createConstant, createHypermesh, createFullMesh]
  exact e3.2 ⟨by rw [hl]; rfl, by rw [hl]; rfl, by rw [hb]; rfl⟩

end Verif.Transcription
