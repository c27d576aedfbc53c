import Verif.Spec.PathMoves
import Verif.Props.PathSolve

/-! Lemmas on minimum curvature paths of circuits that are moved, turned or mirrored. -/

set_option autoImplicit false

namespace Verif.Path

open Verif.Road (Vec3)

theorem turnPoint_back (angle : ℝ) (d p : Vec3) :
    turnPoint (-angle) (-(Real.cos angle * d.1 + Real.sin angle * d.2.1), Real.sin angle * d.1 - Real.cos angle * d.2.1, -d.2.2)
      (turnPoint angle d p) = p := by
  have h := Real.sin_sq_add_cos_sq angle
  obtain ⟨x, y, z⟩ := p
  simp only [turnPoint, Real.cos_neg, Real.sin_neg, Prod.mk.injEq]
  refine ⟨?_, ?_, by ring⟩
  · linear_combination x * h
  · linear_combination y * h

theorem turned_back (angle : ℝ) (d : Vec3) (k : Circuit) : ∃ d', (k.turned angle d).turned (-angle) d' = k := by
  refine ⟨(-(Real.cos angle * d.1 + Real.sin angle * d.2.1), Real.sin angle * d.1 - Real.cos angle * d.2.1, -d.2.2), ?_⟩
  obtain ⟨l, dir, ce, t⟩ := k
  simp only [Circuit.turned, turnPoint_back, add_neg_cancel_right]

theorem place_turn (angle : ℝ) (d p : Vec3) (yaw pitch roll n : ℝ) :
    place (turnPoint angle d p) (normalVector (yaw + angle) pitch roll) n = turnPoint angle d (place p (normalVector yaw pitch roll) n) := by
  simp only [place, turnPoint, normalVector, Real.cos_add, Real.sin_add, Prod.mk.injEq]
  exact ⟨by ring, by ring, by ring⟩

theorem place_flip (p : Vec3) (yaw pitch roll n : ℝ) :
    place (flip p) (normalVector (-yaw) pitch (-roll)) (-n) = flip (place p (normalVector yaw pitch roll) n) := by
  simp only [place, flip, normalVector, Real.cos_neg, Real.sin_neg, Prod.mk.injEq]
  exact ⟨by ring, by ring, by ring⟩

theorem follows_zero {dir : ℝ → ℝ → Vec3} {turn ds : ℝ} {a b : Node} :
    FollowsWithin 0 dir turn ds a b ↔ Follows dir turn ds a b := by
  obtain ⟨⟨bx, by', bz⟩, bv⟩ := b
  simp only [FollowsWithin, Follows, abs_nonpos_iff, sub_eq_zero, Prod.mk.injEq, and_assoc]

theorem follows_turn {angle : ℝ} {d : Vec3} {turn ds : ℝ} {a b : Node}
    (h : FollowsWithin 0 (fun yaw pitch => heading yaw (-pitch)) turn ds a b) :
    FollowsWithin 0 (fun yaw pitch => heading yaw (-pitch)) turn ds
      ⟨turnPoint angle d a.pos, { a.v with yaw := a.v.yaw + angle }⟩ ⟨turnPoint angle d b.pos, { b.v with yaw := b.v.yaw + angle }⟩ := by
  rw [follows_zero] at h ⊢
  obtain ⟨h1, h2, h3, h4⟩ := h
  refine ⟨?_, by simp only; linarith, h3, h4⟩
  simp only [h1, turnPoint, heading, Real.cos_add, Real.sin_add, Prod.mk.injEq]
  exact ⟨by ring, by ring, by ring⟩

/-- The mirror image of a point of a path. -/
def mirrorNode (a : Node) : Node where
  pos := flip a.pos
  v := ⟨-a.v.n, -a.v.yaw, a.v.pitch, -a.v.roll, -a.v.yawDot, a.v.pitchDot, -a.v.rollDot⟩

theorem follows_mirror {turn ds : ℝ} {a b : Node} (h : FollowsWithin 0 (fun yaw pitch => heading yaw (-pitch)) turn ds a b) :
    FollowsWithin 0 (fun yaw pitch => heading yaw (-pitch)) (-turn) ds (mirrorNode a) (mirrorNode b) := by
  rw [follows_zero] at h ⊢
  obtain ⟨h1, h2, h3, h4⟩ := h
  refine ⟨?_, by simp only [mirrorNode]; linarith, h3, by simp only [mirrorNode]; linarith⟩
  simp only [mirrorNode, h1, flip, heading, Real.cos_neg, Real.sin_neg, Prod.mk.injEq]
  exact ⟨trivial, by ring, trivial⟩

theorem mirrored_back (k : Circuit) : k.mirrored.mirrored = k := by
  obtain ⟨l, dir, ce, t⟩ := k
  simp only [Circuit.mirrored, flip, neg_neg]

theorem evaluate_minimised (closed : Bool) (c : Course) (hn : 0 < c.n) (direction : ℤ) :
    ∃ rs, evaluate closed direction (c.lengths closed) c.nodes = .ok (c.minimised closed, rs) := by
  cases closed
  · exact C137_open c hn direction
  · exact C137_closed c hn direction

/-- What a computed path satisfies. -/
theorem computed_allowed {S : Solver} (hS : Exact S) (hz : Sized S) {throwIfFail closed : Bool} {deg : ℝ} {k : Circuit} {s : List ℝ}
    {r : Result} (h : compute S throwIfFail closed deg k s = .ok r) (hr : r.success = true) :
    r.course.Allowed closed deg k r.s ∧ ∀ c : Course, c.Allowed closed deg k r.s → r.course.minimised closed ≤ c.minimised closed := by
  have hc := compute_inv h
  obtain ⟨h2, h3⟩ := C239_on_track 0 S (fun p hp => (hS p hp).imp fun _ h => h.1) throwIfFail closed deg k s r h hr
  obtain ⟨p, r', -, e, -, -, e5, -, -, h1⟩ := C239_outcome S hz closed deg k s r.s hc
  have hrr : r' = r := by
    have e := e throwIfFail
    rw [h] at e
    split_ifs at e
    exact (Res.ok.inj e).symm
  subst hrr
  refine ⟨⟨h1, h2, h3⟩, fun c hcc => ?_⟩
  obtain ⟨_, e1⟩ := evaluate_minimised closed r'.course (stations_pos hc) k.direction
  obtain ⟨_, e2⟩ := evaluate_minimised closed c (by rw [hcc.1.1]; exact stations_pos hc) k.direction
  exact best_cost hS h hr c hcc.1 hcc.2.1 hcc.2.2 _ _ _ _ e1 e2

/-- The stations do not depend on anything but the length of the circuit. -/
theorem computed_stations {S S' : Solver} {t t' closed : Bool} {deg deg' : ℝ} {k k' : Circuit} {s : List ℝ} {r r' : Result}
    (hk : k'.length = k.length) (h : compute S t closed deg k s = .ok r) (h' : compute S' t' closed deg' k' s = .ok r') :
    r'.s = r.s := by
  have a := compute_inv h
  have b := compute_inv h'
  rw [hk, a] at b
  exact (Res.ok.inj b).symm

/-- On a circuit of 100 metres with a path of no curvature the path is computed (for the examples). -/
theorem straight_like (k : Circuit) (hk : k.length = 100) (m : Course) (m1 : m.OnSections k [10, 40, 90])
    (m2 : m.InRange 0 false 1 k [10, 40, 90]) (m3 : m.Continuous 0 false k) (hm : m.openCost = 0) :
    ∃ r, compute bestSolver true false 1 k [10, 40, 90] = .ok r ∧ r.success = true := by
  have hc : checkStations false k.length [10, 40, 90] = .ok [10, 40, 90] := by
    rw [hk]; norm_num [checkStations]
  obtain ⟨p, r, hp, h2, h3, -, h5, h6, -⟩ :=
    C239_outcome bestSolver bestSolver_sized false 1 k [10, 40, 90] [10, 40, 90] hc
  have hs : (bestSolver p).success = true := by
    have hex : ∃ x : List ℝ, x.length ≤ p.start.length ∧
        ∃ f, Feasible 0 p x f ∧ ∀ y f', Feasible 0 p y f' → f ≤ f' := by
      obtain ⟨_, e⟩ := C137_open m (by rw [m1.1]; simp) k.direction
      have hf := feasible_of_course hc hp m m1 m2 m3 _ _ e
      obtain ⟨xs, xl, xu, q, hl, hp'⟩ := nlp_eq false 1 k [10, 40, 90] [10, 40, 90] hc
      rw [hp] at hp'
      simp only [Res.ok.injEq, Prod.mk.injEq, true_and] at hp'
      refine ⟨_, ?_, _, hf, ?_⟩
      · rw [hp', pack_length]
        simp only
        rw [hl]
        rw [m1.1]
      · intro y f' hy
        rw [show (∑ i ∈ Finset.range (m.n - 1), m.ds i / 2 * (turn2 (m.node i).v + turn2 (m.node (i + 1)).v)) = 0 from hm]
        obtain ⟨hw, g, hg, -⟩ := hy
        have hw' : Within 0 xl y xu := by rw [hp'] at hw; exact hw
        have hyl : y.length = nVariables 3 (nElements false 3) := by
          obtain ⟨_, _, xu', q', -, ⟨hxl, -⟩, -⟩ :=
            problem_eq false 1 k.length k.table [10, 40, 90] [10, 40, 90] hc
          rw [q] at q'
          simp only [Res.ok.injEq, Prod.mk.injEq, true_and] at q'
          have := hw'.1.length_eq
          rw [← this, q'.2.1, hxl]
          rfl
        have hin := (inRange_iff 0 false 1 k _ _ y xs xl xu hc q hyl).1 hw'
        obtain ⟨cost, rs, he, hfit⟩ := fitness_course false k [10, 40, 90] y (by simp) hyl
        rw [hp'] at hg
        simp only [hfit] at hg
        obtain ⟨rfl, -⟩ := List.cons.inj (Res.ok.inj hg)
        obtain ⟨_, e2⟩ := C137_open (vecCourse k [10, 40, 90] y) (by simp [vecCourse]) k.direction
        rw [he] at e2
        obtain ⟨rfl, -⟩ := Prod.mk.inj (Res.ok.inj e2)
        refine Finset.sum_nonneg fun i hi => ?_
        have hi : i < 2 := Finset.mem_range.1 hi
        have hd : 0 ≤ (vecCourse k [10, 40, 90] y).ds i := by
          have e : steps false k.length ([10, 40, 90] : List ℝ) = [30, 50] := by
            rw [hk]; norm_num [steps]
          have : i = 0 ∨ i = 1 := by omega
          rcases this with rfl | rfl
          · have := (hin.2 0 30 (by rw [e]; rfl)).1
            norm_num at this; linarith
          · have := (hin.2 1 50 (by rw [e]; rfl)).1
            norm_num at this; linarith
        have t1 := turn2_nonneg ((vecCourse k [10, 40, 90] y).node i).v
        have t2 := turn2_nonneg ((vecCourse k [10, 40, 90] y).node (i + 1)).v
        exact mul_nonneg (by linarith) (by linarith)
    unfold bestSolver
    rw [dif_pos hex]
  have hr := h2 true
  rw [hs] at hr
  simp only [Bool.true_eq_false, false_and, if_false] at hr
  exact ⟨r, hr, by rw [h3, hs]⟩

end Verif.Path
