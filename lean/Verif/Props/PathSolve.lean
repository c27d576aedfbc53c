import Verif.Lemmas.PathSolve

/-! # Properties of computed minimum curvature paths -/

set_option autoImplicit false

namespace Verif.Path

open Verif.Road (Vec3)

theorem stations_pos {closed : Bool} {length : ℝ} {s s' : List ℝ}
    (h : checkStations closed length s = .ok s') : 0 < s'.length := by
  match s with
  | [] => simp [checkStations] at h
  | a :: l =>
    unfold checkStations at h
    revert h
    simp only
    split <;> (split; · simp) <;> (split; · simp) <;>
      (intro h; rw [← Res.ok.inj h]; simp)

theorem nlp_eq (closed : Bool) (deg : ℝ) (k : Circuit) (s s' : List ℝ)
    (h : checkStations closed k.length s = .ok s') :
    ∃ xs xl xu, problem closed deg k.length k.table s = .ok (s', xs, xl, xu) ∧
      xs.length = nVariables s'.length (nElements closed s'.length) ∧
      nlp closed deg k s = .ok (s', ⟨xs, xl, xu,
        List.replicate (nConstraints (nElements closed s'.length)) 0,
        List.replicate (nConstraints (nElements closed s'.length)) 0,
        fun x => (fitness closed k s' x).map Prod.fst⟩) := by
  obtain ⟨xs, xl, xu, q, hl, -⟩ := problem_eq closed deg k.length k.table s s' h
  refine ⟨xs, xl, xu, q, hl, ?_⟩
  unfold nlp
  rw [q]
  rfl

/-! ## C239: the outcome -/

/-- C239. For every solver, circuit and accepted stations: an exception is thrown exactly when the solver
fails and exceptions are asked for. Otherwise the path has one value of each quantity per station and one
length per element, says whether the solver succeeded and how long it took, and its points are at the
stations, at the distance `n` from the centreline along the normal. -/
theorem C239_outcome (S : Solver) (hS : Sized S) (closed : Bool) (deg : ℝ) (k : Circuit) (s s' : List ℝ)
    (h : checkStations closed k.length s = .ok s') :
    ∃ p r, nlp closed deg k s = .ok (s', p) ∧
      (∀ throwIfFail, compute S throwIfFail closed deg k s =
        if (S p).success = false ∧ throwIfFail = true then .throw else .ok r) ∧
      r.success = (S p).success ∧ r.iterations = some (S p).iterations ∧ r.s = s' ∧
      (∀ l ∈ r.lists, l.length = s'.length) ∧
      r.ds.length = (if closed then s'.length else s'.length - 1) ∧ r.course.OnSections k s' := by
  obtain ⟨xs, xl, xu, q, hl, hp⟩ := nlp_eq closed deg k s s' h
  obtain ⟨p, hpd⟩ : ∃ p : Nlp, p = ⟨xs, xl, xu, List.replicate (nConstraints (nElements closed s'.length)) 0,
        List.replicate (nConstraints (nElements closed s'.length)) 0,
        fun x => (fitness closed k s' x).map Prod.fst⟩ := ⟨_, rfl⟩
  rw [← hpd] at hp
  have hlen : (S p).x.length ≤ nVariables s'.length (nElements closed s'.length) := by
    have := hS p
    have e : p.start = xs := by rw [hpd]
    rw [← hl, ← e]; exact this
  obtain ⟨x, hx, hxl⟩ : ∃ x, copyOver (nVariables s'.length (nElements closed s'.length)) (S p).x = .ok x ∧
      x.length = nVariables s'.length (nElements closed s'.length) := by
    refine ⟨_, if_pos hlen, ?_⟩
    simp; omega
  obtain ⟨cost, rs, -, hf⟩ := fitness_course closed k s' x (stations_pos h) hxl
  have hsame := exported_same closed (S p) s' (vecCourse k s' x) rfl
  refine ⟨p, exported (S p) s' (vecCourse k s' x).nodes ((vecCourse k s' x).lengths closed), hp, ?_, rfl, rfl,
    rfl, ?_, ?_, ?_⟩
  · intro throwIfFail
    unfold compute
    rw [hp, Res.bind_ok]
    simp only [hx, Res.bind_ok, hf]
    cases (S p).success <;> cases throwIfFail <;> rfl
  · intro l hl
    simp only [Result.lists, exported, List.mem_cons, List.not_mem_nil, or_false] at hl
    rcases hl with rfl | rfl | rfl | rfl | rfl | rfl | rfl | rfl | rfl | rfl <;>
      simp [Course.nodes, vecCourse]
  · simp [exported, Course.lengths, vecCourse, nElements]
  · refine ⟨rfl, fun i a ha => ?_⟩
    have hi := (List.getElem?_eq_some_iff.1 ha).1
    rw [← hsame.2.1 i hi]
    simp [vecCourse, varsOf, ha]

/-- C239. Stations that are not accepted are rejected before anything is computed. -/
theorem C239_rejected (S : Solver) (throwIfFail closed : Bool) (deg : ℝ) (k : Circuit) (s : List ℝ)
    (h : checkStations closed k.length s = .throw) : compute S throwIfFail closed deg k s = .throw := by
  unfold compute nlp problem
  rw [h]
  rfl

theorem compute_inv {S : Solver} {throwIfFail closed : Bool} {deg : ℝ} {k : Circuit} {s : List ℝ}
    {r : Result} (h : compute S throwIfFail closed deg k s = .ok r) :
    checkStations closed k.length s = .ok r.s := by
  unfold compute at h
  obtain ⟨q, h1, h2⟩ := Res.bind_eq_ok.1 h
  unfold nlp at h1
  obtain ⟨t, h3, h4⟩ := Res.bind_eq_ok.1 h1
  unfold problem at h3
  obtain ⟨s', h5, h6⟩ := Res.bind_eq_ok.1 h3
  simp only [Res.bind_eq_ok] at h6
  obtain ⟨xs, -, xl, -, xu, -, h7⟩ := h6
  obtain rfl := Res.ok.inj h7
  simp only at h4
  obtain rfl := Res.ok.inj h4
  simp only at h2
  split at h2
  · simp at h2
  · obtain ⟨x, -, h8⟩ := Res.bind_eq_ok.1 h2
    obtain ⟨f, -, h9⟩ := Res.bind_eq_ok.1 h8
    rw [← Res.ok.inj h9]
    exact h5

theorem compute_success {S : Solver} {throwIfFail closed : Bool} {deg : ℝ} {k : Circuit} {s : List ℝ}
    {r : Result} (h : compute S throwIfFail closed deg k s = .ok r) (tol : ℝ) (p : Nlp)
    (hp : nlp closed deg k s = .ok (r.s, p)) (f : ℝ) (hf : Feasible tol p (S p).x f) :
    r.success = (S p).success ∧ Same closed (vecCourse k r.s (S p).x) r.course ∧
      (vecCourse k r.s (S p).x).InRange tol closed deg k r.s ∧
      ∃ rs, evaluate closed k.direction ((vecCourse k r.s (S p).x).lengths closed)
        (vecCourse k r.s (S p).x).nodes = .ok (f, rs) ∧ ∀ a ∈ rs, |a| ≤ tol := by
  have hc := compute_inv h
  obtain ⟨xs, xl, xu, q, hl, hp'⟩ := nlp_eq closed deg k s r.s hc
  have hpp := hp
  rw [hp'] at hp
  simp only [Res.ok.injEq, Prod.mk.injEq, true_and] at hp
  obtain ⟨hw, g, hg, hcon⟩ := hf
  have hxl : (S p).x.length = nVariables r.s.length (nElements closed r.s.length) := by
    obtain ⟨_, _, xu', q', -, ⟨hxl, -⟩, -⟩ := problem_eq closed deg k.length k.table s r.s hc
    rw [q] at q'
    simp only [Res.ok.injEq, Prod.mk.injEq, true_and] at q'
    rw [← hxl, ← hw.1.length_eq, ← q'.2.1, ← hp]
  obtain ⟨cost, rs, he, hfit⟩ := fitness_course closed k r.s (S p).x (stations_pos hc) hxl
  have hfg : p.fg (S p).x = .ok (cost :: rs) := by
    conv_lhs => rw [← hp]
    simp only
    rw [hp, hfit]
    rfl
  rw [hfg] at hg
  obtain ⟨rfl, rfl⟩ := List.cons.inj (Res.ok.inj hg)
  have hr : r = exported (S p) r.s (vecCourse k r.s (S p).x).nodes
      ((vecCourse k r.s (S p).x).lengths closed) := by
    unfold compute at h
    rw [hpp, Res.bind_ok] at h
    simp only at h
    split at h
    · simp at h
    · rw [copyOver, if_pos (by rw [hxl]), Res.bind_ok] at h
      simp only [hxl, Nat.sub_self, List.replicate_zero, List.append_nil] at h
      rw [hfit, Res.bind_ok] at h
      exact (Res.ok.inj h).symm
  refine ⟨by rw [hr]; rfl, ?_, ?_, rs, he, ?_⟩
  · have := exported_same closed (S p) r.s (vecCourse k r.s (S p).x) rfl
    rw [← hr] at this
    exact this
  · refine (inRange_iff tol closed deg k s r.s _ xs xl xu hc q hxl).1 ?_
    have := hw
    rw [← hp] at this
    simp only [hp] at this
    exact this
  · intro a ha
    obtain ⟨i, hi⟩ := List.mem_iff_getElem?.1 ha
    have h1 := (forall₂_getElem?.1 hcon.1)
    have h2 := (forall₂_getElem?.1 hcon.2)
    have hcl : p.cl = List.replicate (nConstraints (nElements closed r.s.length)) 0 := by rw [← hp]
    have hcu : p.cu = List.replicate (nConstraints (nElements closed r.s.length)) 0 := by rw [← hp]
    have hi' : i < nConstraints (nElements closed r.s.length) := by
      have e := h1.1
      rw [hcl, List.length_replicate] at e
      rw [e]
      exact (List.getElem?_eq_some_iff.1 hi).1
    have l1 := h1.2 i 0 a (by rw [hcl]; simp [hi']) hi
    have l2 := h2.2 i a 0 hi (by rw [hcu]; simp [hi'])
    rw [abs_le]
    constructor <;> linarith

/-- C239. With a solver that satisfies bounds and constraints up to a tolerance when it reports success,
and a path that reports success: the path is within the edges of the circuit and is a curve, up to the same
tolerance. -/
theorem C239_on_track (tol : ℝ) (S : Solver) (hS : Accurate tol S) (throwIfFail closed : Bool) (deg : ℝ)
    (k : Circuit) (s : List ℝ) (r : Result) (h : compute S throwIfFail closed deg k s = .ok r)
    (hr : r.success = true) :
    r.course.InRange tol closed deg k r.s ∧ r.course.Continuous tol closed k := by
  have hc := compute_inv h
  obtain ⟨xs, xl, xu, q, hl, hp⟩ := nlp_eq closed deg k s r.s hc
  have hs : (S ⟨xs, xl, xu, List.replicate (nConstraints (nElements closed r.s.length)) 0,
        List.replicate (nConstraints (nElements closed r.s.length)) 0,
        fun x => (fitness closed k r.s x).map Prod.fst⟩).success = true := by
    unfold compute at h
    rw [hp, Res.bind_ok] at h
    simp only at h
    split at h
    · simp at h
    · obtain ⟨x, -, h8⟩ := Res.bind_eq_ok.1 h
      obtain ⟨f, -, h9⟩ := Res.bind_eq_ok.1 h8
      rw [← Res.ok.inj h9] at hr
      exact hr
  obtain ⟨f, hf⟩ := hS _ hs
  obtain ⟨-, hsame, hin, rs, he, hrs⟩ := compute_success h tol _ hp f hf
  have hn : 0 < (vecCourse k r.s (S ⟨xs, xl, xu, List.replicate (nConstraints (nElements closed r.s.length)) 0,
        List.replicate (nConstraints (nElements closed r.s.length)) 0,
        fun x => (fitness closed k r.s x).map Prod.fst⟩).x).n := stations_pos hc
  exact ⟨hsame.inRange rfl hin,
    hsame.continuous hn ((continuous_iff tol _ hn closed k f rs he).2 hrs)⟩

/-- C239. On a track made of arcs nothing is thrown whatever the solver says: its answer is in `get_x()`,
and the flag tells whether it succeeded. At least two points are needed. -/
theorem C239_arcs (S : Solver) (t : Arcs.Track) (hne : t.segs ≠ []) (n : Nat) :
    (2 ≤ n → ∃ r, computeArcs S t n = .ok r ∧ r.success = (S (arcsNlp t n)).success ∧
      r.arcs = (S (arcsNlp t n)).x) ∧
    (n < 2 → computeArcs S t n = .ub) := by
  constructor
  · intro hn
    obtain ⟨P, -, h2⟩ := C138_periodic t hne n hn fun _ => 0
    refine ⟨⟨(S (arcsNlp t n)).success, none, [], [], [], [], [], [], [], [], [], [], [], [],
      (S (arcsNlp t n)).x⟩, ?_, rfl, rfl⟩
    unfold computeArcs
    have : (arcsNlp t n).start = (List.range n).map fun _ => (0 : ℝ) := by
      simp [arcsNlp, List.map_const']
    rw [this, h2]
    rfl
  · intro hn
    unfold computeArcs
    rw [C138_undefined t _ (by simpa [arcsNlp] using hn)]
    rfl

/-! ## C240: no other path turns less -/

theorem feasible_of_course {closed : Bool} {deg : ℝ} {k : Circuit} {s s' : List ℝ}
    (hc : checkStations closed k.length s = .ok s') {p : Nlp} (hp : nlp closed deg k s = .ok (s', p))
    (c : Course) (h1 : c.OnSections k s') (h2 : c.InRange 0 closed deg k s')
    (h3 : c.Continuous 0 closed k) (cost : ℝ) (rs : List ℝ)
    (he : evaluate closed k.direction (c.lengths closed) c.nodes = .ok (cost, rs)) :
    Feasible 0 p (pack closed c) cost := by
  obtain ⟨xs, xl, xu, q, hl, hp'⟩ := nlp_eq closed deg k s s' hc
  rw [hp] at hp'
  simp only [Res.ok.injEq, Prod.mk.injEq, true_and] at hp'
  have hn : 0 < c.n := by rw [h1.1]; exact stations_pos hc
  have hlen : (pack closed c).length = nVariables s'.length (nElements closed s'.length) := by
    rw [pack_length, h1.1]
  have hsame := pack_same closed k s' c h1
  obtain ⟨cost', rs', he', hfit⟩ := fitness_course closed k s' (pack closed c) (stations_pos hc) hlen
  rw [hsame.lists.1, hsame.lists.2, he] at he'
  obtain ⟨rfl, rfl⟩ := Prod.mk.inj (Res.ok.inj he')
  have hz := (continuous_iff 0 c hn closed k cost rs he).1 h3
  have hrl : rs.length = nConstraints (nElements closed s'.length) := by
    obtain ⟨_, _, e1, e2⟩ := C136_filled c hn closed k.direction
    rw [he] at e1
    obtain ⟨rfl, rfl⟩ := Prod.mk.inj (Res.ok.inj e1)
    cases closed with
    | false =>
      rw [evaluate_open c hn] at he
      obtain ⟨-, rfl⟩ := Prod.mk.inj (Res.ok.inj he)
      simp [List.length_flatMap, rows, nConstraints, nElements, h1.1]
    | true =>
      rw [evaluate_closed c hn] at he
      obtain ⟨-, rfl⟩ := Prod.mk.inj (Res.ok.inj he)
      simp [List.length_flatMap, rows, closingRows, nConstraints, nElements, h1.1]
      have := stations_pos hc
      omega
  rw [hp']
  refine ⟨(inRange_iff 0 closed deg k s s' _ xs xl xu hc q hlen).2 (hsame.symm.inRange h1.1 h2), rs, ?_, ?_⟩
  · simp only
    rw [hfit]
    rfl
  · refine ⟨forall₂_getElem?.2 ⟨by simp [hrl], fun j a b ha hb => ?_⟩,
      forall₂_getElem?.2 ⟨by simp [hrl], fun j a b ha hb => ?_⟩⟩
    · have := hz b (List.mem_of_getElem? hb)
      have ha := List.mem_of_getElem? ha
      obtain rfl := (List.mem_replicate.1 ha).2
      rw [abs_le] at this
      linarith
    · have := hz a (List.mem_of_getElem? ha)
      have hb := List.mem_of_getElem? hb
      obtain rfl := (List.mem_replicate.1 hb).2
      rw [abs_le] at this
      linarith

theorem best_cost {S : Solver} (hS : Exact S) {throwIfFail closed : Bool} {deg : ℝ}
    {k : Circuit} {s : List ℝ} {r : Result} (h : compute S throwIfFail closed deg k s = .ok r)
    (hr : r.success = true) (c : Course) (h1 : c.OnSections k r.s)
    (h2 : c.InRange 0 closed deg k r.s) (h3 : c.Continuous 0 closed k) (cost cost' : ℝ) (rs rs' : List ℝ)
    (he : evaluate closed k.direction (r.course.lengths closed) r.course.nodes = .ok (cost, rs))
    (he' : evaluate closed k.direction (c.lengths closed) c.nodes = .ok (cost', rs')) : cost ≤ cost' := by
  have hc := compute_inv h
  obtain ⟨xs, xl, xu, q, hl, hp⟩ := nlp_eq closed deg k s r.s hc
  obtain ⟨p, hpd⟩ : ∃ p : Nlp, p = ⟨xs, xl, xu, List.replicate (nConstraints (nElements closed r.s.length)) 0,
        List.replicate (nConstraints (nElements closed r.s.length)) 0,
        fun x => (fitness closed k r.s x).map Prod.fst⟩ := ⟨_, rfl⟩
  rw [← hpd] at hp
  have hs : (S p).success = true := by
    unfold compute at h
    rw [hp, Res.bind_ok] at h
    simp only at h
    split at h
    · simp at h
    · obtain ⟨x, -, h8⟩ := Res.bind_eq_ok.1 h
      obtain ⟨f, -, h9⟩ := Res.bind_eq_ok.1 h8
      rw [← Res.ok.inj h9] at hr
      exact hr
  obtain ⟨f, hf, hbest⟩ := hS p hs
  obtain ⟨-, hsame, -, rs2, he2, -⟩ := compute_success h 0 p hp f hf
  rw [hsame.lists.1, hsame.lists.2, he] at he2
  obtain ⟨rfl, rfl⟩ := Prod.mk.inj (Res.ok.inj he2)
  exact hbest _ _ (feasible_of_course hc hp c h1 h2 h3 cost' rs' he')

/-- C240, the part about open circuits: with a solver that finds minima, no other path at the same stations,
within the edges, angles, rates and element lengths allowed, that is a curve, has a smaller integral of the
squared curvature. -/
theorem C240_open_partial (S : Solver) (hS : Exact S) (throwIfFail : Bool) (deg : ℝ) (k : Circuit)
    (s : List ℝ) (r : Result) (h : compute S throwIfFail false deg k s = .ok r) (hr : r.success = true)
    (c : Course) (h1 : c.OnSections k r.s) (h2 : c.InRange 0 false deg k r.s)
    (h3 : c.Continuous 0 false k) : r.course.openCost ≤ c.openCost := by
  have hc := compute_inv h
  have hn : 0 < c.n := by rw [h1.1]; exact stations_pos hc
  obtain ⟨_, e1⟩ := C137_open r.course (stations_pos hc) k.direction
  obtain ⟨_, e2⟩ := C137_open c hn k.direction
  exact best_cost hS h hr c h1 h2 h3 _ _ _ _ e1 e2

/-- C240, the part about closed circuits: among flat paths. With pitch the cost leaves out part of the last
element (C137), so that the least cost need not be the least curvature. -/
theorem C240_closed_partial (S : Solver) (hS : Exact S) (throwIfFail : Bool) (deg : ℝ) (k : Circuit)
    (s : List ℝ) (r : Result) (h : compute S throwIfFail true deg k s = .ok r) (hr : r.success = true)
    (hflat : r.course.Flat) (c : Course) (hcf : c.Flat) (h1 : c.OnSections k r.s)
    (h2 : c.InRange 0 true deg k r.s) (h3 : c.Continuous 0 true k) :
    r.course.lapCost ≤ c.lapCost := by
  have hc := compute_inv h
  have hn : 0 < c.n := by rw [h1.1]; exact stations_pos hc
  have hrn : 0 < r.course.n := stations_pos hc
  obtain ⟨_, e1⟩ := C137_closed r.course hrn k.direction
  obtain ⟨_, e2⟩ := C137_closed c hn k.direction
  have hk : ∀ (d : Course), d.Flat → ∀ i < d.n, turn2 (d.node i).v = (d.node i).v.yawDot ^ 2 :=
    fun d hd i hi => turn2_flat _ (hd i hi).1 (hd i hi).2.1 (hd i hi).2.2
  have := best_cost hS h hr c h1 h2 h3 _ _ _ _ e1 e2
  rw [hk _ hflat _ (by omega), hk _ hflat _ hrn, hk _ hcf _ (by omega), hk _ hcf _ hn] at this
  simpa using this

/-! ## C241: the file of a path -/

/-- C241, the part that holds: a path computed on a circuit is saved with all the quantities of its points. -/
theorem C241_saved_partial (S : Solver) (hS : Sized S) (throwIfFail closed : Bool) (deg : ℝ) (k : Circuit)
    (s : List ℝ) (r : Result) (h : compute S throwIfFail closed deg k s = .ok r) :
    xml r = .ok [("x", r.x), ("y", r.y), ("z", r.z), ("lateral_displacement", r.n), ("yaw", r.yaw),
      ("pitch", r.pitch), ("roll", r.roll), ("yaw_dot", r.yawDot), ("pitch_dot", r.pitchDot),
      ("roll_dot", r.rollDot)] := by
  have hc := compute_inv h
  obtain ⟨p, r', -, h2, -, -, -, h3, -⟩ := C239_outcome S hS closed deg k s r.s hc
  have := h2 throwIfFail
  rw [h] at this
  split at this
  · simp at this
  · obtain rfl := Res.ok.inj this
    have hne : ∀ l ∈ r.lists, commas l = .ok l := by
      intro l hl
      match l, h3 l hl with
      | [], e => have := stations_pos hc; simp at e; omega
      | _ :: _, _ => rfl
    simp only [Result.lists, List.mem_cons, List.not_mem_nil, or_false, forall_eq_or_imp, forall_eq] at hne
    obtain ⟨e0, e1, e2, e3, e4, e5, e6, e7, e8, e9⟩ := hne
    simp only [xml, children, e0, e1, e2, e3, e4, e5, e6, e7, e8, e9, Res.bind_ok]

/-- C241 is false of a path computed on a track made of arcs: none of the lists that are saved is filled, and
saving reads outside of them. -/
theorem C241_false (S : Solver) (t : Arcs.Track) (n : Nat) (r : Result) (h : computeArcs S t n = .ok r) :
    xml r = .ub := by
  unfold computeArcs at h
  obtain ⟨_, -, h2⟩ := Res.bind_eq_ok.1 h
  rw [← Res.ok.inj h2]
  rfl

/-! ## A case -/

open Classical in
/-- A solver that succeeds when there is a least cost. -/
noncomputable def bestSolver : Solver := fun p =>
  if h : ∃ x : List ℝ, x.length ≤ p.start.length ∧
      ∃ f, Feasible 0 p x f ∧ ∀ y f', Feasible 0 p y f' → f ≤ f'
  then ⟨true, 7, h.choose⟩ else ⟨false, 7, []⟩

theorem bestSolver_exact : Exact bestSolver := by
  intro p hp
  unfold bestSolver at hp ⊢
  split
  · rename_i h; exact h.choose_spec.2
  · rename_i h; simp [h] at hp

theorem bestSolver_accurate : Accurate 0 bestSolver := fun p hp =>
  (bestSolver_exact p hp).imp fun _ h => h.1

theorem bestSolver_sized : Sized bestSolver := by
  intro p
  unfold bestSolver
  split
  · rename_i h; exact h.choose_spec.1
  · simp

/-- A straight of 100 metres along the first axis, three metres wide to the left and four to the right. -/
noncomputable def straight : Circuit := ⟨100, 1, fun a => (a, 0, 0), fun _ => ⟨0, 0, 0, 0, 0, 0, 3, 4⟩⟩

/-- Its centreline at three stations. -/
noncomputable def middle : Course :=
  ⟨3, fun i => ⟨([10, 40, 90].getD i 0, 0, 0), ⟨0, 0, 0, 0, 0, 0, 0⟩⟩, fun i => [30, 50].getD i 0⟩

theorem middle_ok : middle.OnSections straight [10, 40, 90] ∧ middle.InRange 0 false 1 straight [10, 40, 90] ∧
    middle.Continuous 0 false straight := by
  refine ⟨⟨rfl, fun i a ha => ?_⟩, ⟨fun i a ha => ?_, fun i d hd => ?_⟩, fun i hi => ?_, by simp⟩
  · have : ([10, 40, 90] : List ℝ).getD i 0 = a := by rw [List.getD_eq_getElem?_getD, ha]; rfl
    simp only [middle, straight, place, normalVector, this]
    simp
  · constructor <;> simp [middle, straight, least, most]
  · have e : steps false straight.length ([10, 40, 90] : List ℝ) = [30, 50] := by
      norm_num [steps]
    rw [e] at hd
    have : ([30, 50] : List ℝ).getD i 0 = d := by rw [List.getD_eq_getElem?_getD, hd]; rfl
    have hpos : 0 ≤ d := by
      have := List.mem_of_getElem? hd
      simp at this
      rcases this with rfl | rfl <;> norm_num
    simp only [middle, this]
    constructor <;> linarith
  · have hi : i + 1 < 3 := hi
    have : i = 0 ∨ i = 1 := by omega
    rcases this with rfl | rfl <;> simp [FollowsWithin, middle, heading] <;> norm_num

theorem turn2_nonneg (v : Vars ℝ) : 0 ≤ turn2 v := by
  rw [← curvature2_eq]
  unfold curvature2
  nlinarith [mul_self_nonneg (curvature v).1, mul_self_nonneg (curvature v).2.1,
    mul_self_nonneg (curvature v).2.2]

/-- The path along the straight is computed, reports success, has no curvature, and is on the track. -/
theorem straight_computed : ∃ r, compute bestSolver true false 1 straight [10, 40, 90] = .ok r ∧
    r.success = true ∧ r.x.length = 3 ∧ r.course.openCost ≤ 0 ∧
    r.course.InRange 0 false 1 straight [10, 40, 90] := by
  have hc : checkStations false straight.length [10, 40, 90] = .ok [10, 40, 90] := by
    norm_num [checkStations, straight]
  obtain ⟨p, r, hp, h2, h3, -, h5, h6, -⟩ :=
    C239_outcome bestSolver bestSolver_sized false 1 straight [10, 40, 90] [10, 40, 90] hc
  obtain ⟨m1, m2, m3⟩ := middle_ok
  have hs : (bestSolver p).success = true := by
    have hex : ∃ x : List ℝ, x.length ≤ p.start.length ∧
        ∃ f, Feasible 0 p x f ∧ ∀ y f', Feasible 0 p y f' → f ≤ f' := by
      obtain ⟨_, e⟩ := C137_open middle (by norm_num [middle]) straight.direction
      have hf := feasible_of_course hc hp middle m1 m2 m3 _ _ e
      obtain ⟨xs, xl, xu, q, hl, hp'⟩ := nlp_eq false 1 straight [10, 40, 90] [10, 40, 90] hc
      rw [hp] at hp'
      simp only [Res.ok.injEq, Prod.mk.injEq, true_and] at hp'
      refine ⟨_, ?_, _, hf, ?_⟩
      · rw [hp', pack_length]
        simp only
        rw [hl]
        exact le_refl _
      · intro y f' hy
        have hmid : (∑ i ∈ Finset.range (middle.n - 1), middle.ds i / 2 *
            (turn2 (middle.node i).v + turn2 (middle.node (i + 1)).v)) = 0 :=
          Finset.sum_eq_zero fun i _ => by simp [middle, turn2]
        rw [hmid]
        obtain ⟨hw, g, hg, -⟩ := hy
        have hw' : Within 0 xl y xu := by rw [hp'] at hw; exact hw
        have hyl : y.length = nVariables 3 (nElements false 3) := by
          obtain ⟨_, _, xu', q', -, ⟨hxl, -⟩, -⟩ :=
            problem_eq false 1 straight.length straight.table [10, 40, 90] [10, 40, 90] hc
          rw [q] at q'
          simp only [Res.ok.injEq, Prod.mk.injEq, true_and] at q'
          have := hw'.1.length_eq
          rw [← this, q'.2.1, hxl]
          rfl
        have hin := (inRange_iff 0 false 1 straight _ _ y xs xl xu hc q hyl).1 hw'
        obtain ⟨cost, rs, he, hfit⟩ := fitness_course false straight [10, 40, 90] y (by simp) hyl
        rw [hp'] at hg
        simp only [hfit] at hg
        obtain ⟨rfl, -⟩ := List.cons.inj (Res.ok.inj hg)
        obtain ⟨_, e2⟩ := C137_open (vecCourse straight [10, 40, 90] y) (by simp [vecCourse]) straight.direction
        rw [he] at e2
        obtain ⟨rfl, -⟩ := Prod.mk.inj (Res.ok.inj e2)
        refine Finset.sum_nonneg fun i hi => ?_
        have hi : i < 2 := Finset.mem_range.1 hi
        have hd : 0 ≤ (vecCourse straight [10, 40, 90] y).ds i := by
          have e : steps false straight.length ([10, 40, 90] : List ℝ) = [30, 50] := by
            norm_num [steps]
          have : i = 0 ∨ i = 1 := by omega
          rcases this with rfl | rfl
          · have := (hin.2 0 30 (by rw [e]; rfl)).1
            norm_num at this; linarith
          · have := (hin.2 1 50 (by rw [e]; rfl)).1
            norm_num at this; linarith
        have t1 := turn2_nonneg ((vecCourse straight [10, 40, 90] y).node i).v
        have t2 := turn2_nonneg ((vecCourse straight [10, 40, 90] y).node (i + 1)).v
        exact mul_nonneg (by linarith) (by linarith)
    unfold bestSolver
    rw [dif_pos hex]
  have hr := h2 true
  rw [hs] at hr
  simp only [Bool.true_eq_false, false_and, if_false] at hr
  refine ⟨r, hr, by rw [h3, hs], h6 r.x (by simp [Result.lists]), ?_, ?_⟩
  · have := C240_open_partial bestSolver bestSolver_exact true 1 straight _ r hr (by rw [h3, hs]) middle
      (by rw [h5]; exact m1) (by rw [h5]; exact m2) m3
    refine this.trans (le_of_eq (Finset.sum_eq_zero fun i _ => by simp [middle, turn2]))
  · rw [← h5]
    exact (C239_on_track 0 bestSolver bestSolver_accurate true false 1 straight _ r hr (by rw [h3, hs])).1

/-- Its file. -/
example : ∃ r, compute bestSolver true false 1 straight [10, 40, 90] = .ok r ∧ ∃ l, xml r = .ok l ∧ l.length = 10 := by
  obtain ⟨r, h, -⟩ := straight_computed
  exact ⟨r, h, _, C241_saved_partial bestSolver bestSolver_sized true false 1 straight _ r h, rfl⟩

/-- The hypotheses of `C241_false` and `C239_arcs`: four points on a straight, and a solver that fails. -/
example : ∃ t r, Arcs.build 1 6 false [.straight 4] = .ok t ∧
    computeArcs (fun _ => ⟨false, 0, [1]⟩) t 4 = .ok r ∧ r.success = false ∧ r.arcs = [1] ∧ xml r = .ub := by
  obtain ⟨t, ht, hne⟩ : ∃ t, Arcs.build 1 6 false [.straight 4] = .ok t ∧ t.segs ≠ [] :=
    ⟨_, rfl, by simp⟩
  obtain ⟨r, h1, h2, h3⟩ := (C239_arcs (fun _ => ⟨false, 0, [1]⟩) t hne 4).1 (by norm_num)
  exact ⟨t, r, ht, h1, h2, h3, C241_false _ _ _ r h1⟩

end Verif.Path
