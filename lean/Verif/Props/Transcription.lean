import Verif.Lemmas.Encode
import Mathlib.Tactic.NormNum
import Mathlib.Data.Rat.Defs
import Mathlib.Algebra.Order.Ring.Rat

/-! Property theorems C01, C02, C04, C13, C14, C15, C66: the optimisation vector. -/

set_option autoImplicit false

namespace Verif.Transcription

open Verif.Control

variable {K : Type*} [Field K] [LinearOrder K]

theorem wellFormed_defaults {v : Vehicle K} {r : Request K} (hv : v.WellFormed r.controls.length)
    {lowest max : K} {p : Problem K} (hp : prepare lowest max v r = .ok p) :
    v.controlsDef.length = p.controls.length := by
  rw [hv.defaults, (prepare_ok hp).2.controls, List.length_map]

/-! ## A concrete vehicle and requests for the examples -/

/-- Three inputs (speed, time, lateral displacement), two equations, two extra constraints. -/
def exVehicle : Vehicle ℚ :=
  { nInputs := 3, iTime := 1, sTime := 1, nExtra := 2, timeIds := [0], algIds := [2],
    controlsDef := [7, 8, 9, 10], dcontrolsLb := [-5, -6, -7, -8], dcontrolsUb := [5, 6, 7, 8],
    extraLb := fun s j => s + j, extraUb := fun s j => s + j + 1,
    trackLength := 100, leftLimit := fun s => s + 3, rightLimit := fun s => s + 4,
    integralNames := [['a'], ['b']],
    eval := fun row u s => ⟨row, fun j => row j + u.sum + s + 1, row, row⟩,
    ready := true }

def exOptions : Options ℚ :=
  { inputsLb := fun _ => -1000, inputsUb := fun _ => 1000, controlsLb := fun j => -j, controlsUb := fun j => j,
    integral := [(['b'], 0, 5), (['b'], 1, 6)], sigma := 1 / 2 }

/-- A closed or open request with one control of each kind. -/
def exRequest (closed : Bool) : Request ℚ :=
  { s := [0, 10, 20], isClosed := closed, isDirect := true,
    inputs := [fun j => j, fun j => 10 + j, fun j => 20 + j],
    controls := [createDontOptimize, createConstant 3, createHypermesh [0, 15] [1, 2], createFullMesh [4, 5, 6] 1],
    warm := none, opts := exOptions }

theorem exVehicle_wf : exVehicle.WellFormed 4 := ⟨by decide, by decide, rfl⟩

theorem exRequest_acceptable (closed : Bool) : Acceptable exVehicle (exRequest closed) := by
  refine ⟨by simp [exRequest], ?_, ?_, rfl, ?_, ?_, ?_, rfl⟩
  · intro _ a b ha hb
    simp [exRequest] at ha hb; subst ha; subst hb
    norm_num [exVehicle]
  · intro _ a b ha hb
    simp [exRequest] at ha hb; subst ha; subst hb
    norm_num [exVehicle]
  · intro c hc
    simp only [exRequest, List.mem_cons, List.not_mem_nil, or_false] at hc
    rcases hc with rfl | rfl | rfl | rfl
    · exact .dontOptimize rfl rfl rfl rfl
    · exact .constant rfl rfl rfl rfl
    · exact .hypermesh rfl rfl rfl
    · exact .fullMesh rfl rfl (Or.inl rfl) (by norm_num [createFullMesh])
  · intro c hc hk
    simp only [exRequest, List.mem_cons, List.not_mem_nil, or_false] at hc
    rcases hc with rfl | rfl | rfl | rfl <;> try simp [createDontOptimize, createConstant, createHypermesh] at hk
    exact ⟨rfl, rfl⟩
  · intro q hq
    simp only [exRequest, exOptions, List.mem_cons, List.not_mem_nil, or_false] at hq
    rcases hq with rfl | rfl <;> simp [exVehicle]

/-- A derivative-form request without constant controls. -/
def exRequestD (closed : Bool) : Request ℚ :=
  { exRequest closed with
    isDirect := false,
    controls := [createDontOptimize, createHypermesh [0, 15] [1, 2], createFullMeshD [4, 5, 6] [1, 2, 3] 1,
      createFullMeshD [7, 8, 9] [0, 1, 0] 0] }

theorem exRequestD_acceptable (closed : Bool) : Acceptable exVehicle (exRequestD closed) := by
  have h := exRequest_acceptable closed
  refine ⟨h.two, h.closedEnds, h.openEnds, h.inputs, ?_, ?_, h.names, h.ready⟩
  · intro c hc
    simp only [exRequestD, List.mem_cons, List.not_mem_nil, or_false] at hc
    rcases hc with rfl | rfl | rfl | rfl
    · exact .dontOptimize rfl rfl rfl rfl
    · exact .hypermesh rfl rfl rfl
    · exact .fullMesh rfl rfl (Or.inr rfl) (by norm_num [createFullMeshD])
    · exact .fullMesh rfl rfl (Or.inr rfl) (by norm_num [createFullMeshD])
  · intro c hc hk
    simp only [exRequestD, List.mem_cons, List.not_mem_nil, or_false] at hc
    rcases hc with rfl | rfl | rfl | rfl <;> try simp [createDontOptimize, createHypermesh] at hk
    · exact ⟨rfl, rfl⟩
    · exact ⟨rfl, rfl⟩

/-! ## C13: accepted requests -/

/-- C13: a request is accepted exactly when it is acceptable; an accepted request becomes the
problem the user described. -/
theorem C13_accepted_iff (lowest max : K) (v : Vehicle K) (r : Request K) :
    (∃ p, prepare lowest max v r = .ok p) ↔ Acceptable v r :=
  ⟨fun ⟨_, hp⟩ => (prepare_ok hp).1, fun h => (prepare_accepted lowest max v r h).imp fun _ hp => hp.1⟩

/-- C13: every other request is refused by an exception (no undefined behaviour). -/
theorem C13_rejected_throws (lowest max : K) (v : Vehicle K) (r : Request K) (h : ¬ Acceptable v r) :
    prepare lowest max v r = .throw :=
  prepare_rejected lowest max v r h

/-- C13: what an accepted request becomes. -/
theorem C13_accepted_problem (lowest max : K) (v : Vehicle K) (r : Request K) (p : Problem K)
    (hp : prepare lowest max v r = .ok p) : Accepted lowest max v r p :=
  (prepare_ok hp).2

example : ∃ p, prepare (-10 ^ 9) (10 ^ 9) exVehicle (exRequest true) = .ok p :=
  (C13_accepted_iff _ _ _ _).2 (exRequest_acceptable true)

example : prepare (-10 ^ 9) (10 ^ 9) exVehicle { exRequest true with s := [0, 10, 100] } = .throw := by
  apply C13_rejected_throws
  intro h
  have := (h.closedEnds rfl 0 100 rfl rfl).2
  norm_num [exVehicle] at this

/-- The last arclength of an open request may be the track length itself. -/
example : Acceptable exVehicle { exRequest false with s := [0, 10, 100] } := by
  have h := exRequest_acceptable false
  refine ⟨by simp, fun hc => by simp [exRequest] at hc, ?_, rfl, h.consistent, h.full, h.names, h.ready⟩
  intro _ a b ha hb
  simp at ha hb; subst ha; subst hb
  norm_num [exVehicle]

/-! ## C66: requested integral quantities -/

/-- C66: an integral quantity is constrained exactly when it was requested, with the bounds of
the last request for it; otherwise it keeps the widest bounds. -/
theorem C66_integral_quantities (lowest max : K) (v : Vehicle K) (r : Request K) (p : Problem K)
    (hp : prepare lowest max v r = .ok p) (hn : v.integralNames.Nodup) (k : Nat) (nm : Name)
    (hk : v.integralNames[k]? = some nm) :
    ∃ q, p.quantities[k]? = some q ∧
      (q.restrict = true ↔ ∃ lb ub, (nm, lb, ub) ∈ r.opts.integral) ∧
      (∀ before after lb ub, r.opts.integral = before ++ (nm, lb, ub) :: after → (∀ a ∈ after, a.1 ≠ nm) →
        q.lowerBound = lb ∧ q.upperBound = ub) ∧
      (q.restrict = false → q.lowerBound = lowest ∧ q.upperBound = max) := by
  have h := (prepare_ok hp).2.quantities hn k nm hk
  refine ⟨_, h, ?_, ?_, ?_⟩
  · constructor
    · intro hr
      cases hl : lastRequest nm r.opts.integral with
      | none => rw [hl] at hr; simp at hr
      | some a =>
        have h1 := List.find?_some hl
        have h2 := List.mem_of_find?_eq_some hl
        simp only [decide_eq_true_eq] at h1
        obtain ⟨a1, lb, ub⟩ := a
        simp only at h1
        subst h1
        exact ⟨lb, ub, by simpa using h2⟩
    · rintro ⟨lb, ub, hm⟩
      cases hl : lastRequest nm r.opts.integral with
      | none =>
        have := List.find?_eq_none.1 hl (nm, lb, ub) (by simpa using hm)
        simp at this
      | some a => rfl
  · intro before after lb ub hsplit hafter
    have hl : lastRequest nm r.opts.integral = some (nm, lb, ub) := by
      rw [lastRequest, hsplit, List.reverse_append, List.reverse_cons, List.append_assoc,
        List.find?_append, List.find?_eq_none.2]
      · simp
      · intro a ha
        simpa using hafter a (by simpa using ha)
    rw [hl]
    exact ⟨rfl, rfl⟩
  · intro hr
    cases hl : lastRequest nm r.opts.integral with
    | none => exact ⟨rfl, rfl⟩
    | some a => rw [hl] at hr; simp at hr

example : ∃ p q, prepare (-10 ^ 9) (10 ^ 9) exVehicle (exRequest true) = .ok p ∧
    p.quantities[1]? = some q ∧ q.restrict = true ∧ q.lowerBound = 1 ∧ q.upperBound = 6 := by
  obtain ⟨p, hp⟩ := (C13_accepted_iff (-10 ^ 9) (10 ^ 9) _ _).2 (exRequest_acceptable true)
  obtain ⟨q, h1, h2, h3, _⟩ := C66_integral_quantities _ _ _ _ p hp (by decide) 1 ['b'] rfl
  obtain ⟨h4, h5⟩ := h3 [(['b'], 0, 5)] [] 1 6 rfl (by simp)
  exact ⟨p, q, hp, h1, h2.2 ⟨1, 6, by simp [exRequest, exOptions]⟩, h4, h5⟩

/-! ## C14: order of the arclengths -/

/-- C14 (partial): an accepted request whose arclengths increase, and whose second arclength is
positive when closed, keeps increasing arclengths. The full property is false, see below. -/
theorem C14_increasing_partial (lowest max : K) (v : Vehicle K) (r : Request K) (p : Problem K)
    (hp : prepare lowest max v r = .ok p) (hs : r.s.Pairwise (· < ·))
    (h1 : r.isClosed = true → ∀ s1, r.s[1]? = some s1 → 0 < s1) : p.s.Pairwise (· < ·) := by
  have hacc := (prepare_ok hp).1
  rw [(prepare_ok hp).2.s]
  split
  · rename_i hc
    match hrs : r.s with
    | [] => simp
    | [a] => simp
    | a :: b :: l =>
      rw [hrs] at hs h1
      have hb := h1 hc b rfl
      simp only [List.tail_cons]
      have hs' := (List.pairwise_cons.1 hs).2
      refine List.pairwise_cons.2 ⟨?_, hs'⟩
      intro x hx
      rcases List.mem_cons.1 hx with rfl | hx
      · exact hb
      · exact lt_trans hb ((List.pairwise_cons.1 hs').1 x hx)
  · exact hs

/-- C14 is false: a request with decreasing interior arclengths is accepted. -/
theorem C14_false : ∃ (v : Vehicle ℚ) (r : Request ℚ) (p : Problem ℚ),
    prepare (-10 ^ 9) (10 ^ 9) v r = .ok p ∧ p.s = [0, 20, 10] ∧ ¬ p.s.Pairwise (· < ·) := by
  have h := exRequest_acceptable true
  have hacc : Acceptable exVehicle { exRequest true with s := [0, 20, 10] } := by
    refine ⟨by simp, ?_, fun hc => by simp [exRequest] at hc, rfl, h.consistent, h.full, h.names, h.ready⟩
    intro _ a b ha hb
    simp at ha hb; subst ha; subst hb
    norm_num [exVehicle]
  obtain ⟨p, h1, h2⟩ := prepare_accepted (-10 ^ 9) (10 ^ 9) _ _ hacc
  have hs : p.s = [0, 20, 10] := h2.s
  refine ⟨_, _, p, h1, hs, ?_⟩
  rw [hs]
  intro hw
  have := (List.pairwise_cons.1 (List.pairwise_cons.1 hw).2).1 10 (by simp)
  norm_num at this

/-- C14 is false even for increasing requests: the first arclength of a closed simulation is
replaced by zero, which may be after the second one. -/
theorem C14_false_snapped_start : ∃ (v : Vehicle ℚ) (r : Request ℚ) (p : Problem ℚ),
    prepare (-10 ^ 9) (10 ^ 9) v r = .ok p ∧ r.s.Pairwise (· < ·) ∧ ¬ p.s.Pairwise (· < ·) := by
  have h := exRequest_acceptable true
  have hacc : Acceptable exVehicle { exRequest true with s := [-1 / 10 ^ 12, -1 / 10 ^ 13, 10] } := by
    refine ⟨by simp, ?_, fun hc => by simp [exRequest] at hc, rfl, h.consistent, h.full, h.names, h.ready⟩
    intro _ a b ha hb
    simp at ha hb; subst ha; subst hb
    refine ⟨?_, by norm_num [exVehicle]⟩
    rw [abs_of_nonpos] <;> norm_num
  obtain ⟨p, h1, h2⟩ := prepare_accepted (-10 ^ 9) (10 ^ 9) _ _ hacc
  have hs : p.s = [0, -1 / 10 ^ 13, 10] := h2.s
  refine ⟨_, _, p, h1, ?_, ?_⟩
  · norm_num
  · rw [hs]
    intro hw
    have := (List.pairwise_cons.1 hw).1 (-1 / 10 ^ 13) (by simp)
    norm_num at this

example : ∃ p, prepare (-10 ^ 9) (10 ^ 9) exVehicle (exRequest true) = .ok p ∧ p.s.Pairwise (· < ·) := by
  obtain ⟨p, hp⟩ := (C13_accepted_iff (-10 ^ 9) (10 ^ 9) _ _).2 (exRequest_acceptable true)
  refine ⟨p, hp, C14_increasing_partial _ _ _ _ p hp (by norm_num [exRequest]) ?_⟩
  intro _ s1 h
  simp [exRequest] at h
  subst h; norm_num

/-! ## C02: size of the direct vector -/

/-- C02: packing a direct problem succeeds and gives one starting value, lower and upper bound
for each input but the time and each full-mesh control of every optimised node, and for each
value of the constant and hypermesh controls; that is the number of variables the solver is
told. -/
theorem C02_direct_size (lowest max : K) (v : Vehicle K) (r : Request K)
    (hv : v.WellFormed r.controls.length) (hd : r.isDirect = true) (p : Problem K)
    (hp : prepare lowest max v r = .ok p) :
    ∃ es, packDirect v p lowest max = .ok es ∧ es.length = nVariables v p ∧
      es.length = (if r.isClosed then r.s.length else r.s.length - 1) *
          (v.nInputs - 1 + r.controls.countP (fun c => c.kind = .fullMesh))
        + r.controls.countP (fun c => c.kind = .constant)
        + ((r.controls.filter fun c => c.kind = .hypermesh).map fun c => c.controls.length).sum := by
  have hs := prepare_shape hp
  obtain ⟨hacc, g⟩ := prepare_ok hp
  obtain ⟨es, h1, h2⟩ := packDirect_layout v p hs (g.isDirect.trans hd) hv.lateral lowest max
  refine ⟨es, h1, h2.length, ?_⟩
  have hlen : (r.controls.filter fun c => c.kind = .hypermesh).map (fun c => c.controls.length) =
      (r.controls.filter fun c => c.kind = .hypermesh).map (fun c => c.sHypermesh.length) := by
    apply List.map_congr_left
    intro c hc
    rw [List.mem_filter] at hc
    have hk := of_decide_eq_true hc.2
    cases hacc.consistent c hc.1 <;> simp_all
  rw [h2.length, nVariables, nVariablesPerPoint, g.nElements, g.isDirect, hd, g.stats, hlen]
  simp

example (closed : Bool) : ∃ p es, prepare (-10 ^ 9) (10 ^ 9) exVehicle (exRequest closed) = .ok p ∧
    packDirect exVehicle p (-10 ^ 9) (10 ^ 9) = .ok es ∧ es.length = if closed then 12 else 9 := by
  obtain ⟨p, hp⟩ := (C13_accepted_iff (-10 ^ 9) (10 ^ 9) _ _).2 (exRequest_acceptable closed)
  obtain ⟨es, h1, _, h3⟩ := C02_direct_size _ _ _ _ exVehicle_wf rfl p hp
  refine ⟨p, es, hp, h1, h3.trans ?_⟩
  cases closed <;> rfl

/-! ## C01: decoding what was encoded -/

omit [LinearOrder K] in
/-- The freshly constructed cost function fits its problem. -/
theorem C01_fresh_fits (p : Problem K) : FitsProblem p (initialLoaded p) := by
  refine ⟨by simp [initialLoaded], by simp [initialLoaded, clear], ?_⟩
  intro c cv cv' hc hc'
  simp [initialLoaded, clear, hc] at hc'
  subst hc'
  exact ⟨rfl, rfl, rfl, by simp [clearOne], by simp [clearOne]⟩

/-- C01: for every content `st` left by earlier evaluations, every vector of the right size is
read completely and every optimised quantity is taken from its position; afterwards the content
fits the problem again. -/
theorem C01_direct_decode (lowest max : K) (v : Vehicle K) (r : Request K)
    (hv : v.WellFormed r.controls.length) (hd : r.isDirect = true) (p : Problem K)
    (hp : prepare lowest max v r = .ok p) (ini : Initial K) (hini : initialDirect v p = .ok ini)
    (st : Loaded K) (hst : FitsProblem p st) (x : List K) (hx : x.length = nVariables v p) :
    ∃ st', loadDirect v p ini st x = .ok (st', []) ∧ Decoded v p ini st st' x :=
  loadDirect_decoded v hv.lateral p (prepare_shape hp) ((prepare_ok hp).2.isDirect.trans hd) ini
    (initialDirect_spec (wellFormed_defaults hv hp) hini).1 st hst x hx

/-- C01: encoding and decoding gives the same inputs (but for the time) at every node, and
exactly the same controls. -/
theorem C01_direct_round_trip (lowest max : K) (v : Vehicle K) (r : Request K)
    (hv : v.WellFormed r.controls.length) (hd : r.isDirect = true) (p : Problem K)
    (hp : prepare lowest max v r = .ok p) (ini : Initial K) (hini : initialDirect v p = .ok ini)
    (st : Loaded K) (hst : FitsProblem p st) :
    ∃ es st', packDirect v p lowest max = .ok es ∧ loadDirect v p ini st (es.map Entry.start) = .ok (st', []) ∧
      st'.inputs.length = p.inputs.length ∧ SameInputsButTime v (fun _ => True) st'.inputs p.inputs ∧
      st'.controls = p.controls := by
  have hs := prepare_shape hp
  have hdd := (prepare_ok hp).2.isDirect.trans hd
  obtain ⟨es, h1, h2⟩ := packDirect_layout v p hs hdd hv.lateral lowest max
  obtain ⟨i1, i2, i3⟩ := initialDirect_spec (wellFormed_defaults hv hp) hini
  obtain ⟨st', h3, h4⟩ := loadDirect_decoded v hv.lateral p hs hdd ini i1 st hst (es.map Entry.start)
    (by simpa using h2.length)
  obtain ⟨h5, h6, h7⟩ := h4.same hs (h2.holds hs) (fun _ => i2)
    (fun _ c cv hc hk => ⟨i3 c cv hc hk, fun hf => by rw [hdd] at hf; simp at hf⟩)
  exact ⟨es, st', h1, h3, h7, h5, h6⟩

/-- C01, the other direction: encoding what was decoded gives the vector back. So no information
is lost in either direction. -/
theorem C01_direct_reencode (lowest max : K) (v : Vehicle K) (r : Request K)
    (hv : v.WellFormed r.controls.length) (hd : r.isDirect = true) (p : Problem K)
    (hp : prepare lowest max v r = .ok p) (ini : Initial K) (hini : initialDirect v p = .ok ini)
    (st : Loaded K) (hst : FitsProblem p st) (x : List K) (hx : x.length = nVariables v p) :
    ∃ st' es, loadDirect v p ini st x = .ok (st', []) ∧
      packDirect v { p with inputs := st'.inputs, controls := st'.controls } lowest max = .ok es ∧
      es.map Entry.start = x := by
  have hs := prepare_shape hp
  obtain ⟨st', h1, h2⟩ := C01_direct_decode lowest max v r hv hd p hp ini hini st hst x hx
  have hs' := hs.replace h2.fits
  obtain ⟨es, h3, h4⟩ := packDirect_layout v _ hs' ((prepare_ok hp).2.isDirect.trans hd) hv.lateral lowest max
  refine ⟨st', es, h1, h3, ?_⟩
  have hl : es.length = nVariables v p := h4.length
  exact Holds.unique hv.lateral hs h2.fits.inputs h2.fits.controls h2.fits.frames (by simpa using hl) hx
    ((h4.holds hs').replace h2.fits) h2.holds

theorem exInitial (closed : Bool) {p : Problem ℚ}
    (hp : prepare (-10 ^ 9) (10 ^ 9) exVehicle (exRequest closed) = .ok p) :
    ∃ ini, initialDirect exVehicle p = .ok ini := by
  have g := (prepare_ok hp).2
  refine ⟨⟨fun j => j, [(7, 0), (3, 0), (1, 0), (4, 0)]⟩, ?_⟩
  have e : controlArrayAtS ((exRequest closed).controls.map meaningful) exVehicle.controlsDef 0 0 =
      .ok [7, 3, 1, 4] := by cases closed <;> decide +kernel
  have e0 : (if (exRequest closed).isClosed then 0 :: (exRequest closed).s.tail else (exRequest closed).s)
      = [0, 10, 20] := by cases closed <;> rfl
  rw [initialDirect, g.s, g.inputs, g.controls, e0]
  simp only [idx, List.getElem?_cons_zero, Res.bind, e]
  rfl

example (closed : Bool) : ∃ p ini es st',
    prepare (-10 ^ 9) (10 ^ 9) exVehicle (exRequest closed) = .ok p ∧
    initialDirect exVehicle p = .ok ini ∧ packDirect exVehicle p (-10 ^ 9) (10 ^ 9) = .ok es ∧
    loadDirect exVehicle p ini (initialLoaded p) (es.map Entry.start) = .ok (st', []) ∧
    st'.controls = p.controls := by
  obtain ⟨p, hp⟩ := (C13_accepted_iff (-10 ^ 9) (10 ^ 9) _ _).2 (exRequest_acceptable closed)
  obtain ⟨ini, hini⟩ := exInitial closed hp
  obtain ⟨es, st', h1, h2, _, _, h3⟩ :=
    C01_direct_round_trip _ _ _ _ exVehicle_wf rfl p hp ini hini _ (C01_fresh_fits p)
  exact ⟨p, ini, es, st', hp, hini, h1, h2, h3⟩

example : ∃ p ini st', prepare (-10 ^ 9) (10 ^ 9) exVehicle (exRequest false) = .ok p ∧
    initialDirect exVehicle p = .ok ini ∧
    loadDirect exVehicle p ini (initialLoaded p) [1, 2, 3, 4, 5, 6, 7, 8, 9] = .ok (st', []) ∧
    st'.inputs[2]?.map (fun row => (row 0, row 2)) = some (4, 5) := by
  obtain ⟨p, hp⟩ := (C13_accepted_iff (-10 ^ 9) (10 ^ 9) _ _).2 (exRequest_acceptable false)
  obtain ⟨ini, hini⟩ := exInitial false hp
  have g := (prepare_ok hp).2
  have hn : nVariables exVehicle p = 9 := by
    rw [nVariables, nVariablesPerPoint, g.nElements, g.stats, g.isDirect]; rfl
  obtain ⟨st', h1, h2⟩ := C01_direct_decode _ _ _ _ exVehicle_wf rfl p hp ini hini _ (C01_fresh_fits p)
    [1, 2, 3, 4, 5, 6, 7, 8, 9] (by rw [hn]; rfl)
  refine ⟨p, ini, st', hp, hini, h1, ?_⟩
  have hnp : p.nPoints = 3 := g.nPoints
  have hcl : p.isClosed = false := g.isClosed
  obtain ⟨row, hrow⟩ : ∃ row, st'.inputs[2]? = some row :=
    ⟨_, List.getElem?_eq_getElem (by rw [h2.fits.inputs, hnp]; norm_num)⟩
  have hopt : Optimised p 2 := ⟨by rw [hcl]; decide, by rw [hnp]; decide⟩
  have e0 := h2.holds.inputs 2 0 row hopt (by decide) (by decide) hrow
  have e2 := h2.holds.inputs 2 2 row hopt (by decide) (by decide) hrow
  have hb : blockSize exVehicle p.isDirect p.controls = 3 := by
    rw [blockSize, g.isDirect, g.controls]; rfl
  rw [inputPos, blockStart, hb, hcl] at e0 e2
  simp [firstNode, inputSlot, exVehicle] at e0 e2
  simp [hrow, ← e0, ← e2]

/-! ## C04: the derivative form -/

/-- C04 is false: whenever an accepted derivative-form request has a constant control, packing
writes past the end of the vector (undefined behaviour). -/
theorem C04_false_constant_control (lowest max : K) (v : Vehicle K) (r : Request K)
    (hv : v.WellFormed r.controls.length) (hd : r.isDirect = false) (p : Problem K)
    (hp : prepare lowest max v r = .ok p) (hc : ∃ c ∈ r.controls, c.kind = .constant) :
    packDerivative v p lowest max = .ub := by
  obtain ⟨c, hm, hk⟩ := hc
  have g := (prepare_ok hp).2
  exact packDerivative_ub v p (prepare_shape hp) (g.isDirect.trans hd) hv.lateral (meaningful c)
    (by rw [g.controls]; exact List.mem_map_of_mem hm) hk lowest max

theorem noConstant {lowest max : K} {v : Vehicle K} {r : Request K} {p : Problem K}
    (hp : prepare lowest max v r = .ok p) (hc : ∀ c ∈ r.controls, c.kind ≠ .constant) :
    ∀ c ∈ p.controls, c.kind ≠ .constant := by
  rw [(prepare_ok hp).2.controls]
  intro c hm
  obtain ⟨d, hd, rfl⟩ := List.mem_map.1 hm
  exact hc d hd

theorem ratesBounded_iff {lowest max : K} {v : Vehicle K} {r : Request K} {p : Problem K}
    (hp : prepare lowest max v r = .ok p) : v.RatesBounded p.controls ↔ v.RatesBounded r.controls := by
  rw [(prepare_ok hp).2.controls]
  constructor
  · intro h c cv hc hk
    exact h c (meaningful cv) (by simp [hc]) hk
  · intro h c cv hc hk
    rw [List.getElem?_map] at hc
    obtain ⟨d, hd, rfl⟩ := Option.map_eq_some_iff.1 hc
    exact h c d hd hk

theorem ratesBounded {lowest max : K} {v : Vehicle K} {r : Request K} {p : Problem K}
    (hp : prepare lowest max v r = .ok p) (hr : v.RatesBounded r.controls) :
    v.RatesBounded p.controls := (ratesBounded_iff hp).2 hr

/-- C103: the derivative form of an accepted request is built exactly when the vehicle bounds the
rate of every full-mesh control and no control is constant; in every other case building it is
undefined behaviour, never an error message. -/
theorem C103_derivative_built_iff (lowest max : K) (v : Vehicle K) (r : Request K)
    (hv : v.WellFormed r.controls.length) (hd : r.isDirect = false) (p : Problem K)
    (hp : prepare lowest max v r = .ok p) :
    ((∃ es, packDerivative v p lowest max = .ok es) ↔
      v.RatesBounded r.controls ∧ ∀ c ∈ r.controls, c.kind ≠ .constant) ∧
    (packDerivative v p lowest max = .ub ↔
      ¬ (v.RatesBounded r.controls ∧ ∀ c ∈ r.controls, c.kind ≠ .constant)) := by
  have g := (prepare_ok hp).2
  by_cases hr : v.RatesBounded r.controls
  · by_cases hc : ∀ c ∈ r.controls, c.kind ≠ .constant
    · obtain ⟨es, h1, _⟩ := packDerivative_layout v p (prepare_shape hp) (g.isDirect.trans hd)
        (ratesBounded hp hr) hv.lateral (noConstant hp hc) lowest max
      rw [h1]
      exact ⟨⟨fun _ => ⟨hr, hc⟩, fun _ => ⟨es, rfl⟩⟩, ⟨fun h => by simp at h, fun h => absurd ⟨hr, hc⟩ h⟩⟩
    · have hc' : ∃ c ∈ r.controls, c.kind = .constant := by
        by_contra hh
        exact hc (fun c hm hk => hh ⟨c, hm, hk⟩)
      rw [C04_false_constant_control lowest max v r hv hd p hp hc']
      exact ⟨⟨fun ⟨_, h⟩ => by simp at h, fun h => absurd h.2 hc⟩, ⟨fun _ h => hc h.2, fun _ => rfl⟩⟩
  · rw [packDerivative_unbounded v p (prepare_shape hp) (fun h => hr ((ratesBounded_iff hp).1 h))]
    exact ⟨⟨fun ⟨_, h⟩ => by simp at h, fun h => absurd h.1 hr⟩, ⟨fun _ h => hr h.1, fun _ => rfl⟩⟩

/-- C04 (partial): without constant controls, and with a rate bound for each full-mesh
control (C103), packing a derivative-form problem succeeds and
gives exactly the advertised number of variables. Missing: constant controls (false) and
controls without rate bound (false). -/
theorem C04_derivative_size_partial (lowest max : K) (v : Vehicle K) (r : Request K)
    (hv : v.WellFormed r.controls.length) (hd : r.isDirect = false) (p : Problem K)
    (hp : prepare lowest max v r = .ok p) (hc : ∀ c ∈ r.controls, c.kind ≠ .constant)
    (hr : v.RatesBounded r.controls) :
    ∃ es, packDerivative v p lowest max = .ok es ∧ es.length = nVariables v p ∧
      es.length = (if r.isClosed then r.s.length else r.s.length - 1) *
          (v.nInputs - 1 + 2 * r.controls.countP (fun c => c.kind = .fullMesh))
        + ((r.controls.filter fun c => c.kind = .hypermesh).map fun c => c.controls.length).sum := by
  have hs := prepare_shape hp
  obtain ⟨hacc, g⟩ := prepare_ok hp
  obtain ⟨es, h1, h2⟩ := packDerivative_layout v p hs (g.isDirect.trans hd) (ratesBounded hp hr)
    hv.lateral (noConstant hp hc) lowest max
  refine ⟨es, h1, h2.length, ?_⟩
  have hlen : (r.controls.filter fun c => c.kind = .hypermesh).map (fun c => c.controls.length) =
      (r.controls.filter fun c => c.kind = .hypermesh).map (fun c => c.sHypermesh.length) := by
    apply List.map_congr_left
    intro c hc
    rw [List.mem_filter] at hc
    have hk := of_decide_eq_true hc.2
    cases hacc.consistent c hc.1 <;> simp_all
  have h0 : r.controls.countP (fun c => decide (c.kind = .constant)) = 0 := by
    rw [List.countP_eq_zero]
    intro c hm
    simpa using hc c hm
  rw [h2.length, nVariables, nVariablesPerPoint, g.nElements, g.isDirect, hd, g.stats, hlen, h0]
  simp

/-- C04 (partial): without constant controls, decoding an encoded derivative-form problem gives
it back. -/
theorem C04_derivative_round_trip_partial (lowest max : K) (v : Vehicle K) (r : Request K)
    (hv : v.WellFormed r.controls.length) (hd : r.isDirect = false) (p : Problem K)
    (hp : prepare lowest max v r = .ok p) (hc : ∀ c ∈ r.controls, c.kind ≠ .constant)
    (hr : v.RatesBounded r.controls)
    (ini : Initial K) (hini : initialDerivative v p = .ok ini)
    (st : Loaded K) (hst : FitsProblem p st) :
    ∃ es st', packDerivative v p lowest max = .ok es ∧
      loadDerivative v p ini st (es.map Entry.start) = .ok (st', []) ∧
      st'.inputs.length = p.inputs.length ∧ SameInputsButTime v (fun _ => True) st'.inputs p.inputs ∧
      st'.controls = p.controls := by
  have hs := prepare_shape hp
  have hdd := (prepare_ok hp).2.isDirect.trans hd
  obtain ⟨es, h1, h2⟩ := packDerivative_layout v p hs hdd (ratesBounded hp hr)
    hv.lateral (noConstant hp hc) lowest max
  obtain ⟨i1, i2, i3⟩ := initialDerivative_spec (wellFormed_defaults hv hp) hini
  obtain ⟨st', h3, h4⟩ := loadDerivative_decoded v hv.lateral p hs hdd ini i1 st hst (es.map Entry.start)
    (by simpa using h2.length)
  obtain ⟨h5, h6, h7⟩ := h4.same hs (h2.holds hs) (fun _ => i2)
    (fun _ c cv hc hk => ⟨(i3 c cv hc hk).1, fun _ => (i3 c cv hc hk).2⟩)
  exact ⟨es, st', h1, h3, h7, h5, h6⟩

/-- C04: decoding never fails, with constant controls or not: it reads the vector completely and
takes every optimised quantity from its position. -/
theorem C04_derivative_decode (lowest max : K) (v : Vehicle K) (r : Request K)
    (hv : v.WellFormed r.controls.length) (hd : r.isDirect = false) (p : Problem K)
    (hp : prepare lowest max v r = .ok p) (ini : Initial K) (hini : initialDerivative v p = .ok ini)
    (st : Loaded K) (hst : FitsProblem p st) (x : List K) (hx : x.length = nVariables v p) :
    ∃ st', loadDerivative v p ini st x = .ok (st', []) ∧ Decoded v p ini st st' x :=
  loadDerivative_decoded v hv.lateral p (prepare_shape hp) ((prepare_ok hp).2.isDirect.trans hd) ini
    (initialDerivative_spec (wellFormed_defaults hv hp) hini).1 st hst x hx

/-- An accepted derivative-form request with a constant control. -/
def exRequestBad : Request ℚ :=
  { exRequestD true with
    controls := [createConstant 3, createDontOptimize, createDontOptimize, createDontOptimize] }

theorem exRequestBad_acceptable : Acceptable exVehicle exRequestBad := by
  have h := exRequestD_acceptable true
  refine ⟨h.two, h.closedEnds, h.openEnds, h.inputs, ?_, ?_, h.names, h.ready⟩
  · intro c hc
    simp only [exRequestBad, List.mem_cons, List.not_mem_nil, or_false] at hc
    rcases hc with rfl | rfl | rfl | rfl
    · exact .constant rfl rfl rfl rfl
    all_goals exact .dontOptimize rfl rfl rfl rfl
  · intro c hc hk
    simp only [exRequestBad, List.mem_cons, List.not_mem_nil, or_false] at hc
    rcases hc with rfl | rfl | rfl | rfl <;> simp [createDontOptimize, createConstant] at hk

example : ∃ p, prepare (-10 ^ 9) (10 ^ 9) exVehicle exRequestBad = .ok p ∧
    packDerivative exVehicle p (-10 ^ 9) (10 ^ 9) = .ub := by
  obtain ⟨p, hp⟩ := (C13_accepted_iff (-10 ^ 9) (10 ^ 9) _ _).2 exRequestBad_acceptable
  exact ⟨p, hp, C04_false_constant_control _ _ _ _ exVehicle_wf rfl p hp
    ⟨createConstant 3, by simp [exRequestBad], rfl⟩⟩

theorem exRequestD_noConstant (closed : Bool) : ∀ c ∈ (exRequestD closed).controls, c.kind ≠ .constant := by
  intro c hc
  simp only [exRequestD, List.mem_cons, List.not_mem_nil, or_false] at hc
  rcases hc with rfl | rfl | rfl | rfl <;> simp [createDontOptimize, createHypermesh, createFullMeshD]

theorem exRequestD_ratesBounded (closed : Bool) : exVehicle.RatesBounded (exRequestD closed).controls := by
  intro c cv hc _
  have h : c < (exRequestD closed).controls.length := (List.getElem?_eq_some_iff.1 hc).1
  exact ⟨h, h⟩

theorem exInitialD (closed : Bool) {p : Problem ℚ}
    (hp : prepare (-10 ^ 9) (10 ^ 9) exVehicle (exRequestD closed) = .ok p) :
    ∃ ini, initialDerivative exVehicle p = .ok ini := by
  have g := (prepare_ok hp).2
  refine ⟨⟨fun j => j, [(7, 0), (1, 0), (4, 1), (7, 0)]⟩, ?_⟩
  have e : controlArrayAndDerivativeAtS ((exRequestD closed).controls.map meaningful) exVehicle.controlsDef 0 0 =
      .ok [(7, 0), (1, 0), (4, 1), (7, 0)] := by cases closed <;> decide +kernel
  have e0 : (if (exRequestD closed).isClosed then 0 :: (exRequestD closed).s.tail else (exRequestD closed).s)
      = [0, 10, 20] := by cases closed <;> rfl
  rw [initialDerivative, g.s, g.inputs, g.controls, e0]
  simp only [idx, List.getElem?_cons_zero, Res.bind, e]
  rfl

example (closed : Bool) : ∃ p ini es st',
    prepare (-10 ^ 9) (10 ^ 9) exVehicle (exRequestD closed) = .ok p ∧
    initialDerivative exVehicle p = .ok ini ∧ packDerivative exVehicle p (-10 ^ 9) (10 ^ 9) = .ok es ∧
    loadDerivative exVehicle p ini (initialLoaded p) (es.map Entry.start) = .ok (st', []) ∧
    st'.controls = p.controls := by
  obtain ⟨p, hp⟩ := (C13_accepted_iff (-10 ^ 9) (10 ^ 9) _ _).2 (exRequestD_acceptable closed)
  obtain ⟨ini, hini⟩ := exInitialD closed hp
  obtain ⟨es, st', h1, h2, _, _, h3⟩ := C04_derivative_round_trip_partial _ _ _ _ exVehicle_wf rfl p hp
    (exRequestD_noConstant closed) (exRequestD_ratesBounded closed) ini hini _ (C01_fresh_fits p)
  exact ⟨p, ini, es, st', hp, hini, h1, h2, h3⟩

/-- C103 is false as a promise to the user: a vehicle with rate bounds for the first two of its
controls only, whose third control is optimised at every node: the request is accepted, building it
is undefined behaviour. -/
theorem C103_false (closed : Bool) : ∃ (v : Vehicle ℚ) (p : Problem ℚ), v.WellFormed (exRequestD closed).controls.length ∧
    (∀ c ∈ (exRequestD closed).controls, c.kind ≠ .constant) ∧
    prepare (-10 ^ 9) (10 ^ 9) v (exRequestD closed) = .ok p ∧ packDerivative v p (-10 ^ 9) (10 ^ 9) = .ub := by
  have h := exRequestD_acceptable closed
  obtain ⟨p, hp⟩ := (C13_accepted_iff (-10 ^ 9) (10 ^ 9) { exVehicle with dcontrolsLb := [-5, -6], dcontrolsUb := [5, 6] }
    (exRequestD closed)).2 ⟨h.two, h.closedEnds, h.openEnds, h.inputs, h.consistent, h.full, h.names, h.ready⟩
  have hv : Vehicle.WellFormed { exVehicle with dcontrolsLb := [-5, -6], dcontrolsUb := [5, 6] }
      (exRequestD closed).controls.length := ⟨by decide, by decide, rfl⟩
  refine ⟨_, p, hv, exRequestD_noConstant closed, hp, ((C103_derivative_built_iff _ _ _ _ hv rfl p hp).2).2 ?_⟩
  intro hh
  have := (hh.1 2 _ rfl rfl).1
  simp at this

example (closed : Bool) : ∃ p es, prepare (-10 ^ 9) (10 ^ 9) exVehicle (exRequestD closed) = .ok p ∧
    packDerivative exVehicle p (-10 ^ 9) (10 ^ 9) = .ok es := by
  obtain ⟨p, hp⟩ := (C13_accepted_iff (-10 ^ 9) (10 ^ 9) _ _).2 (exRequestD_acceptable closed)
  obtain ⟨es, h⟩ := ((C103_derivative_built_iff _ _ _ _ exVehicle_wf rfl p hp).1).2
    ⟨exRequestD_ratesBounded closed, exRequestD_noConstant closed⟩
  exact ⟨p, es, hp, h⟩

/-! ## C15: bounds of the variables -/

/-- The bounds of every optimised quantity of problem `p` in the packed vector `es`: the track
limits at the node for the lateral displacement, the bounds of the options for the other inputs
and for the controls, the vehicle's bounds for the control rates. -/
structure BoundsAsAsked (v : Vehicle K) (p : Problem K) (es : List (Entry K)) : Prop where
  lateral : ∀ (i : Nat) (si : K), Optimised p i → p.s[i]? = some si →
    ∃ x, es[inputPos v p i (v.iTime + 1)]? = some ⟨x, -(v.leftLimit si), v.rightLimit si⟩
  inputs : ∀ (i j : Nat), Optimised p i → j < v.nInputs → j ≠ v.iTime → j ≠ v.iTime + 1 →
    ∃ x, es[inputPos v p i j]? = some ⟨x, p.opts.inputsLb j, p.opts.inputsUb j⟩
  full : ∀ (i c : Nat) (cv : CV K), Optimised p i → p.controls[c]? = some cv → cv.kind = .fullMesh →
    ∃ x, es[fullPos v p i c]? = some ⟨x, p.opts.controlsLb c, p.opts.controlsUb c⟩
  rates : p.isDirect = false → ∀ (i c : Nat) (cv : CV K), Optimised p i → p.controls[c]? = some cv →
    cv.kind = .fullMesh → ∃ x l u, v.dcontrolsLb[c]? = some l ∧ v.dcontrolsUb[c]? = some u ∧
      es[ratePos v p i c]? = some ⟨x, l, u⟩
  other : ∀ (c k : Nat) (cv : CV K), p.controls[c]? = some cv →
    (cv.kind = .constant ∨ cv.kind = .hypermesh) → k < cv.controls.length →
    ∃ x, es[otherPos v p c k]? = some ⟨x, p.opts.controlsLb c, p.opts.controlsUb c⟩

omit [LinearOrder K] in
theorem boundsAsAsked {v : Vehicle K} (hv : v.iTime + 1 < v.nInputs) {p : Problem K} (hp : Shape p)
    {es : List (Entry K)} (h : Layout v p es) : BoundsAsAsked v p es := by
  refine ⟨?_, ?_, ?_, ?_, ?_⟩
  · intro i si hi hs
    obtain ⟨row, hr⟩ : ∃ row, p.inputs[i]? = some row :=
      ⟨_, List.getElem?_eq_getElem (by rw [hp.inputs]; exact hi.2)⟩
    refine ⟨row (v.iTime + 1), ?_⟩
    rw [h.inputs i (v.iTime + 1) row si hi hv (by omega) hr hs]
    simp [inputLb, inputUb]
  · intro i j hi hj ht hl
    obtain ⟨row, hr⟩ : ∃ row, p.inputs[i]? = some row :=
      ⟨_, List.getElem?_eq_getElem (by rw [hp.inputs]; exact hi.2)⟩
    obtain ⟨si, hs⟩ : ∃ si, p.s[i]? = some si := ⟨_, List.getElem?_eq_getElem (by rw [hp.s]; exact hi.2)⟩
    refine ⟨row j, ?_⟩
    rw [h.inputs i j row si hi hj ht hr hs]
    simp [inputLb, inputUb, hl]
  · intro i c cv hi hc hk
    obtain ⟨a, _, h2⟩ := h.full i c cv hi hc hk
    exact ⟨a, h2⟩
  · intro hd i c cv hi hc hk
    obtain ⟨a, l, u, _, h2⟩ := h.rates hd i c cv hi hc hk
    exact ⟨a, l, u, h2⟩
  · intro c k cv hc hk hkl
    obtain ⟨a, _, h2⟩ := h.other c k cv hc hk hkl
    exact ⟨a, h2⟩

/-- C15, direct form. -/
theorem C15_bounds_direct (lowest max : K) (v : Vehicle K) (r : Request K)
    (hv : v.WellFormed r.controls.length) (hd : r.isDirect = true) (p : Problem K)
    (hp : prepare lowest max v r = .ok p) :
    ∃ es, packDirect v p lowest max = .ok es ∧ BoundsAsAsked v p es := by
  have hs := prepare_shape hp
  obtain ⟨es, h1, h2⟩ := packDirect_layout v p hs ((prepare_ok hp).2.isDirect.trans hd) hv.lateral lowest max
  exact ⟨es, h1, boundsAsAsked hv.lateral hs h2⟩

/-- C15, derivative form, whenever the vectors are built at all (see C04). -/
theorem C15_bounds_derivative (lowest max : K) (v : Vehicle K) (r : Request K)
    (hv : v.WellFormed r.controls.length) (hd : r.isDirect = false) (p : Problem K)
    (hp : prepare lowest max v r = .ok p) (es : List (Entry K)) (hes : packDerivative v p lowest max = .ok es) :
    BoundsAsAsked v p es := by
  have hs := prepare_shape hp
  have hdd := (prepare_ok hp).2.isDirect.trans hd
  by_cases hr : v.RatesBounded p.controls
  swap
  · rw [packDerivative_unbounded v p hs hr] at hes
    simp at hes
  by_cases hc : ∀ c ∈ p.controls, c.kind ≠ .constant
  · obtain ⟨es', h1, h2⟩ := packDerivative_layout v p hs hdd hr hv.lateral hc lowest max
    rw [hes] at h1
    simp only [Res.ok.injEq] at h1
    subst h1
    exact boundsAsAsked hv.lateral hs h2
  · have hc' : ∃ c ∈ p.controls, c.kind = .constant := by
      by_contra hh
      exact hc (fun c hm hk => hh ⟨c, hm, hk⟩)
    obtain ⟨c, hm, hk⟩ := hc'
    rw [packDerivative_ub v p hs hdd hv.lateral c hm hk] at hes
    simp at hes

/-- At arclength 20 (node 2) the lateral displacement is bounded by the limits 23 and 24. -/
example : ∃ p es x, prepare (-10 ^ 9) (10 ^ 9) exVehicle (exRequest true) = .ok p ∧
    packDirect exVehicle p (-10 ^ 9) (10 ^ 9) = .ok es ∧ es[7]? = some ⟨x, -23, 24⟩ := by
  obtain ⟨p, hp⟩ := (C13_accepted_iff (-10 ^ 9) (10 ^ 9) _ _).2 (exRequest_acceptable true)
  obtain ⟨es, h1, h2⟩ := C15_bounds_direct _ _ _ _ exVehicle_wf rfl p hp
  have g := (prepare_ok hp).2
  have hs : p.s[2]? = some 20 := by rw [g.s]; rfl
  have hcl : p.isClosed = true := g.isClosed
  obtain ⟨x, hx⟩ := h2.lateral 2 20 ⟨by rw [hcl]; decide, by rw [g.nPoints]; decide⟩ hs
  have hb : blockSize exVehicle p.isDirect p.controls = 3 := by
    rw [blockSize, g.isDirect, g.controls]; rfl
  rw [inputPos, blockStart, hb, hcl] at hx
  refine ⟨p, es, x, hp, h1, ?_⟩
  have e : (2 - firstNode true) * 3 + inputSlot exVehicle (exVehicle.iTime + 1) = 7 := by decide
  rw [e] at hx
  rw [hx]
  norm_num [exVehicle]

end Verif.Transcription
