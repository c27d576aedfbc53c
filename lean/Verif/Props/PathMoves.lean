import Verif.Lemmas.PathMoves

/-! Properties of minimum curvature paths on circuits that are moved, turned or mirrored (C264, C265). -/

set_option autoImplicit false

namespace Verif.Path

open Verif.Road (Vec3)

/-! ## C264 -/

/-- C264: a path is allowed on a circuit exactly if the turned and moved path is allowed on the turned and moved circuit (the
converse is this for the opposite turn). -/
theorem C264_paths (angle : ℝ) (d : Vec3) (closed : Bool) (deg : ℝ) (k : Circuit) (s : List ℝ) (c : Course)
    (h : c.Allowed closed deg k s) : (c.turned angle d).Allowed closed deg (k.turned angle d) s := by
  obtain ⟨⟨hn, h1⟩, ⟨h2, h2'⟩, h3, h4⟩ := h
  refine ⟨⟨hn, fun i a ha => ?_⟩, ⟨fun i a ha => ?_, h2'⟩, fun i hi => follows_turn (h3 i hi), fun hc => follows_turn (h4 hc)⟩
  · simp only [Course.turned, Circuit.turned, place_turn, h1 i a ha]
  · obtain ⟨a1, a2, a3, a4, a5, a6, a7⟩ := h2 i a ha
    refine ⟨a1, ?_, a3, a4, a5, a6, a7⟩
    simp only [least, most, Circuit.turned, Course.turned] at a2 ⊢
    constructor <;> linarith

/-- C264: turning and moving does not change the curvature of a path. -/
theorem C264_curvature (angle : ℝ) (d : Vec3) (c : Course) : (c.turned angle d).openCost = c.openCost ∧
    (c.turned angle d).lapCost = c.lapCost ∧ ∀ closed, (c.turned angle d).minimised closed = c.minimised closed :=
  ⟨rfl, rfl, fun closed => by cases closed <;> rfl⟩

/-- C264: on the turned and moved circuit the computed path has the same cost, and the turned and moved path is one of the best. -/
theorem C264_least (angle : ℝ) (d : Vec3) (S : Solver) (hS : Exact S) (hz : Sized S) (t t' closed : Bool) (deg : ℝ) (k : Circuit)
    (s : List ℝ) (r r' : Result) (h : compute S t closed deg k s = .ok r) (hr : r.success = true)
    (h' : compute S t' closed deg (k.turned angle d) s = .ok r') (hr' : r'.success = true) :
    r'.course.minimised closed = r.course.minimised closed ∧
    (r.course.turned angle d).Allowed closed deg (k.turned angle d) r'.s ∧
    ∀ c : Course, c.Allowed closed deg (k.turned angle d) r'.s → (r.course.turned angle d).minimised closed ≤ c.minimised closed := by
  have hs := computed_stations (show (k.turned angle d).length = k.length from rfl) h h'
  obtain ⟨a1, a2⟩ := computed_allowed hS hz h hr
  obtain ⟨b1, b2⟩ := computed_allowed hS hz h' hr'
  have key := C264_paths angle d closed deg k r.s r.course a1
  obtain ⟨d', hk⟩ := turned_back angle d k
  have back := C264_paths (-angle) d' closed deg (k.turned angle d) r'.s r'.course b1
  rw [hk, hs] at back
  have e1 := a2 _ back
  have e2 := b2 _ (hs.symm ▸ key)
  rw [(C264_curvature _ _ _).2.2] at e1 e2
  refine ⟨le_antisymm e2 e1, hs.symm ▸ key, fun c hc => ?_⟩
  rw [(C264_curvature _ _ _).2.2]
  exact e1.trans (b2 c hc)

/-- The straight turned by one radian and moved: the best path has no curvature either. -/
example : ∃ r r', compute bestSolver true false 1 straight [10, 40, 90] = .ok r ∧
    compute bestSolver true false 1 (straight.turned 1 (5, 7, 2)) [10, 40, 90] = .ok r' ∧
    r'.course.openCost = r.course.openCost := by
  obtain ⟨r, h, hs, -⟩ := straight_computed
  have hm : middle.openCost = 0 := Finset.sum_eq_zero fun i _ => by simp [middle, turn2]
  obtain ⟨a1, a2, a3⟩ := C264_paths 1 (5, 7, 2) false 1 straight [10, 40, 90] middle middle_ok
  obtain ⟨r', h', hs'⟩ := straight_like _ rfl _ a1 a2 a3 hm
  exact ⟨r, r', h, h', (C264_least 1 (5, 7, 2) bestSolver bestSolver_exact bestSolver_sized true true false 1 straight _ r r' h hs
    h' hs').1⟩

/-! ## C265 -/

/-- C265: the mirror image of a path that is allowed on a circuit is allowed on the mirror image of the circuit. -/
theorem C265_paths (closed : Bool) (deg : ℝ) (k : Circuit) (s : List ℝ) (c : Course) (h : c.Allowed closed deg k s) :
    c.mirrored.Allowed closed deg k.mirrored s := by
  obtain ⟨⟨hn, h1⟩, ⟨h2, h2'⟩, h3, h4⟩ := h
  refine ⟨⟨hn, fun i a ha => ?_⟩, ⟨fun i a ha => ?_, h2'⟩, fun i hi => ?_, fun hc => ?_⟩
  · simp only [Course.mirrored, Circuit.mirrored, place_flip, h1 i a ha]
  · obtain ⟨a1, a2, a3, a4, a5, a6, a7⟩ := h2 i a ha
    simp only [least, most] at a1 a2 a3 a4 a5 a6 a7
    refine ⟨?_, ?_, a3, ?_, ?_, a6, ?_⟩ <;> simp only [least, most, Circuit.mirrored, Course.mirrored] <;> constructor <;> linarith
  · have := follows_mirror (h3 i hi)
    rw [neg_zero] at this
    exact this
  · have := follows_mirror (h4 hc)
    rw [show -(2 * Real.pi * (k.direction : ℝ)) = 2 * Real.pi * ((-k.direction : ℤ) : ℝ) by push_cast; ring] at this
    exact this

theorem turn2_mirrored (c : Course) (i : Nat) : turn2 (c.mirrored.node i).v = turn2 (c.node i).v := by
  simp only [turn2, Course.mirrored]
  ring

/-- C265: mirror images have the same curvature. -/
theorem C265_curvature (c : Course) : c.mirrored.openCost = c.openCost ∧ c.mirrored.lapCost = c.lapCost ∧
    ∀ closed, c.mirrored.minimised closed = c.minimised closed := by
  have h1 : c.mirrored.openCost = c.openCost := by
    unfold Course.openCost
    simp only [turn2_mirrored]
    rfl
  have h2 : c.mirrored.lapCost = c.lapCost := by
    unfold Course.lapCost
    simp only [turn2_mirrored]
    rfl
  refine ⟨h1, h2, fun closed => ?_⟩
  cases closed
  · exact h1
  · simp only [Course.minimised, h2, turn2_mirrored, cond_true]
    simp only [Course.mirrored, neg_sq]

/-- C265: on the mirror image of a circuit the computed path has the same cost, and the mirror image of the path is one of the
best. -/
theorem C265_least (S : Solver) (hS : Exact S) (hz : Sized S) (t t' closed : Bool) (deg : ℝ) (k : Circuit)
    (s : List ℝ) (r r' : Result) (h : compute S t closed deg k s = .ok r) (hr : r.success = true)
    (h' : compute S t' closed deg k.mirrored s = .ok r') (hr' : r'.success = true) :
    r'.course.minimised closed = r.course.minimised closed ∧ r.course.mirrored.Allowed closed deg k.mirrored r'.s ∧
    ∀ c : Course, c.Allowed closed deg k.mirrored r'.s → r.course.mirrored.minimised closed ≤ c.minimised closed := by
  have hs := computed_stations (show k.mirrored.length = k.length from rfl) h h'
  obtain ⟨a1, a2⟩ := computed_allowed hS hz h hr
  obtain ⟨b1, b2⟩ := computed_allowed hS hz h' hr'
  have key := C265_paths closed deg k r.s r.course a1
  have back := C265_paths closed deg k.mirrored r'.s r'.course b1
  rw [mirrored_back, hs] at back
  have e1 := a2 _ back
  have e2 := b2 _ (hs.symm ▸ key)
  rw [(C265_curvature _).2.2] at e1 e2
  refine ⟨le_antisymm e2 e1, hs.symm ▸ key, fun c hc => ?_⟩
  rw [(C265_curvature _).2.2]
  exact e1.trans (b2 c hc)

/-- The straight is wider to the right, its mirror image to the left. -/
example : ∃ r r', compute bestSolver true false 1 straight [10, 40, 90] = .ok r ∧
    compute bestSolver true false 1 straight.mirrored [10, 40, 90] = .ok r' ∧ (straight.mirrored.table 0).nl = 4 ∧
    r'.course.openCost = r.course.openCost := by
  obtain ⟨r, h, hs, -⟩ := straight_computed
  have hm : middle.openCost = 0 := Finset.sum_eq_zero fun i _ => by simp [middle, turn2]
  obtain ⟨a1, a2, a3⟩ := C265_paths false 1 straight [10, 40, 90] middle middle_ok
  obtain ⟨r', h', hs'⟩ := straight_like _ rfl _ a1 a2 a3 ((C265_curvature _).1.trans hm)
  exact ⟨r, r', h, h', rfl, (C265_least bestSolver bestSolver_exact bestSolver_sized true true false 1 straight _ r r' h hs
    h' hs').1⟩

end Verif.Path
