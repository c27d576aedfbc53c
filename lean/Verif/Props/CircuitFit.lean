import Verif.Lemmas.CircuitFit
import Verif.Props.Centreline

/-! # The fit of a circuit: from the measured boundaries to the fitted track -/

set_option autoImplicit false

namespace Verif.Fit

open Verif.Road (Vec3)
open Verif.Preprocessor

/-! ## C202: the outcome -/

/-- C202. From a usable estimate and an optimiser that returns as many variables as it is given, the fit
never runs into undefined behaviour: the problem has as many bounds as variables, every vector of that size
has a cost and as many constraints as announced, and the fit returns a track when the optimiser reports
success and throws when it does not. -/
theorem C202_outcome (lib : Library) (opt : Optimiser) (hopt : RightSize opt) (st : Settings) (k : Kind)
    (closed : Bool) (left right : List Vec3) (c : Centerline) (hu : Usable closed left right c) :
    ∃ su, setup lib st k closed left right c = .ok su ∧
      su.nlp.start.length = 1 + (if k = .elevated then 16 else 9) * c.s.length ∧
      su.nlp.lower.length = su.nlp.start.length ∧ su.nlp.upper.length = su.nlp.start.length ∧
      (∀ x, x.length = su.nlp.start.length →
        ∃ v, su.nlp.value x = .ok v ∧ v.length = 1 + su.nlp.nConstraints) ∧
      ((opt su.nlp).success = true → ∃ res, compute lib opt st k closed left right c = .ok res) ∧
      ((opt su.nlp).success = false → compute lib opt st k closed left right c = .throw) := by
  obtain ⟨ang, guess, dir, su, hg, hG, hsu, hP⟩ := setup_ok lib st k closed left right c hu
  have hlen : su.nlp.start.length = nVariables k c.r.length := by
    rw [hP.start, vector_length, hG.length]
    rfl
  refine ⟨su, hsu, ?_, ?_, ?_, ?_, ?_, ?_⟩
  · rw [hlen, ← hu.points]
    cases k <;> rfl
  · rw [hP.lower, hP.start, List.length_cons, List.length_cons,
      flatMap_length _ _ (writes_length k), flatMap_length _ _ (lowerWrites_length _ _ k)]
  · rw [hP.upper, hP.start, List.length_cons, List.length_cons,
      flatMap_length _ _ (writes_length k), flatMap_length _ _ (upperWrites_length _ _ k)]
  · intro x hx
    obtain ⟨f, pts, hn, rfl, hk⟩ := represent k c.r.length x (by rw [hx, hlen])
    have hp0 : pts ≠ [] := by
      intro h
      have := hu.first
      rw [h, hu.points] at hn
      rw [List.eq_nil_of_length_eq_zero hn.symm] at this
      cases this
    obtain ⟨cost, rs, -, h2, h3⟩ := value_vector lib st su.problem left right c.r pts hp0
      (by rw [hP.ds, hP.elements.2.length, hP.closed_, hn, hu.points]) f
    rw [hP.kind, hP.closed_, hn] at h3 h2
    exact ⟨_, by rw [hP.value]; exact h3, by rw [List.length_cons, h2, hP.rows]; omega⟩
  · intro hs
    obtain ⟨f, pts, hn, hx, hk⟩ := represent k c.r.length (opt su.nlp).x (by rw [hopt, hlen])
    obtain ⟨el, er, e⟩ := finish_ok lib st k closed left right c hu guess dir su hP f pts hn hk
    refine ⟨_, Eq.trans ?_ e⟩
    unfold compute
    rw [hsu, Res.bind_ok, show opt su.nlp = ⟨true, f :: pts.flatMap (writes k)⟩ by rw [← hs, ← hx]]
  · intro hs
    unfold compute finish
    rw [hsu, Res.bind_ok, if_neg (by rw [hs]; decide)]

/-! ## C203: the track -/

/-- The result of the fit, in terms of the variables found by the optimiser. -/
theorem compute_result (lib : Library) (opt : Optimiser) (hopt : RightSize opt) (st : Settings) (k : Kind)
    (closed : Bool) (left right : List Vec3) (c : Centerline) (hu : Usable closed left right c)
    (res : Fitted) (hres : compute lib opt st k closed left right c = .ok res) :
    ∃ ang guess su f, startGuess lib k closed st.dmax left right c = .ok (guess, res.direction) ∧
      Guessed lib k closed st.dmax left right c ang guess res.direction ∧
      setup lib st k closed left right c = .ok su ∧
      Prepared lib st k closed left right c guess res.direction su ∧
      opt su.nlp = ⟨true, f :: res.points.flatMap (writes k)⟩ ∧ res.points.length = c.r.length ∧
      (∀ p ∈ res.points, keep k p = p) ∧ res.s = c.s.map (f * ·) ∧ res.length = f * c.length ∧
      res.left = res.points.map leftEdge ∧ res.right = res.points.map rightEdge ∧
      res.centre = res.points.map position := by
  obtain ⟨ang, guess, dir, su, hg, hG, hsu, hP⟩ := setup_ok lib st k closed left right c hu
  have hlen : su.nlp.start.length = nVariables k c.r.length := by
    rw [hP.start, vector_length, hG.length]
    rfl
  obtain ⟨f, pts, hn, hx, hk⟩ := represent k c.r.length (opt su.nlp).x (by rw [hopt, hlen])
  have hs : (opt su.nlp).success = true := by
    unfold compute finish at hres
    rw [hsu, Res.bind_ok] at hres
    by_contra h
    rw [if_neg h] at hres
    cases hres
  have ho : opt su.nlp = ⟨true, f :: pts.flatMap (writes k)⟩ := by rw [← hs, ← hx]
  obtain ⟨el, er, e⟩ := finish_ok lib st k closed left right c hu guess dir su hP f pts hn hk
  unfold compute at hres
  rw [hsu, Res.bind_ok, ho, e] at hres
  obtain rfl := Res.ok.inj hres
  refine ⟨ang, guess, su, f, hg, hG, hsu, hP, ho, hn, hk, rfl, rfl, ?_, ?_, rfl⟩
  · exact List.map_congr_left fun p hp => (edges_eq k p (hk p hp)).1
  · exact List.map_congr_left fun p hp => (edges_eq k p (hk p hp)).2

/-- C203. When the fit returns, up to the tolerances of the optimiser: the points obey the equations of a
track over every element, the heading of a closed circuit makes one turn, the first point is on the start
line (and the last one of an open circuit on the finish line), every quantity is within its range around
the starting guess; the arclengths are those of the estimate times a factor between 0.9 and 1.11, and the
boundaries are `nl` and `nr` away from the centre across the road. -/
theorem C203_track (lib : Library) (opt : Optimiser) (hopt : RightSize opt) (tolB tolC : ℝ)
    (hrel : Reliable tolB tolC opt) (st : Settings) (k : Kind) (closed : Bool) (left right : List Vec3)
    (c : Centerline) (hu : Usable closed left right c) (res : Fitted)
    (hres : compute lib opt st k closed left right c = .ok res) :
    ∃ (guess : List (Point ℝ)) (f : ℝ),
      startGuess lib k closed st.dmax left right c = .ok (guess, res.direction) ∧
      res.points.length = c.s.length ∧ guess.length = c.s.length ∧
      9 / 10 - tolB ≤ f ∧ f ≤ 111 / 100 + tolB ∧
      res.s = c.s.map (f * ·) ∧ res.length = f * c.length ∧
      Obeys k closed res.direction left right tolC res.s res.length res.points ∧
      Near k st.deg st.limits tolB guess res.points ∧
      (k = .flat → ∀ p ∈ res.points, p.z = 0 ∧ p.pitch = 0 ∧ p.roll = 0) ∧
      res.left = res.points.map leftEdge ∧ res.right = res.points.map rightEdge ∧
      res.centre = res.points.map position := by
  obtain ⟨ang, guess, su, f, hg, hG, hsu, hP, ho, hn, hk, h1, h2, h3, h4, h5⟩ :=
    compute_result lib opt hopt st k closed left right c hu res hres
  have hs0 : c.s ≠ [] := by
    intro h
    have := hu.first
    rw [h] at this
    cases this
  have hp0 : res.points ≠ [] :=
    List.ne_nil_of_length_pos (by rw [hn, hu.points]; exact List.length_pos_iff.2 hs0)
  obtain ⟨cost, rs, e1, -, e3⟩ := value_vector lib st su.problem left right c.r res.points hp0
    (by rw [hP.ds, hP.elements.2.length, hP.closed_, hn, hu.points]) f
  rw [hP.kind, hP.closed_, hn] at e3
  obtain ⟨hw, hr⟩ := hrel su.nlp cost rs (by rw [ho]) (by rw [hP.value, ho]; exact e3)
  rw [ho, hP.lower, hP.upper, within_iff k _ _ _ _ _ _ (by rw [hn, hG.length])] at hw
  have hE : Elements su.problem.closed c.s c.length su.problem.ds := by
    rw [hP.closed_, hP.ds]; exact hP.elements.2
  have hob := (obeys_iff lib st.dmax su.problem left right c.r res.points
    (by rw [hP.kind]; exact hk) c.s c.length (by rw [hn, hu.points]) hs0 hE hP.leftFirst hP.rightFirst
    hP.leftLast hP.rightLast f tolC cost rs e1).1 hr
  rw [hP.kind, hP.closed_, hP.direction] at hob
  refine ⟨guess, f, hg, by rw [hn, hu.points], by rw [hG.length, hu.points], hw.1.1, hw.1.2, h1, h2, ?_,
    hw.2, ?_, h3, h4, h5⟩
  · rw [h1, h2]; exact hob
  · rintro rfl p hp
    have := hk p hp
    exact ⟨(congrArg Point.z this).symm, (congrArg Point.pitch this).symm, (congrArg Point.roll this).symm⟩

/-- C203. The direction across the road has unit length and is perpendicular to the direction of travel, so
that the boundaries are at the distances `nl` and `nr` from the centre. -/
theorem C203_side (p : Point ℝ) :
    Road.dot (side p) (side p) = 1 ∧ Road.dot (side p) (heading p) = 0 ∧
      len (leftEdge p - position p) = |p.nl| ∧ len (rightEdge p - position p) = |p.nr| := by
  have h1 : Road.dot (side p) (side p) = 1 := by
    simp only [Road.dot, side]
    have hy := Real.sin_sq_add_cos_sq p.yaw
    have hp := Real.sin_sq_add_cos_sq p.pitch
    have hr := Real.sin_sq_add_cos_sq p.roll
    linear_combination (Real.sin p.pitch ^ 2 * Real.sin p.roll ^ 2 + Real.cos p.roll ^ 2) * hy
      + Real.sin p.roll ^ 2 * hp + hr
  have hlen : ∀ a : ℝ, len (a • side p) = |a| := by
    intro a
    have : Road.dot (a • side p) (a • side p) = a ^ 2 := by
      simp only [Road.dot, Prod.smul_fst, Prod.smul_snd, smul_eq_mul] at h1 ⊢
      linear_combination a ^ 2 * h1
    rw [len, this, Real.sqrt_sq_eq_abs]
  refine ⟨h1, ?_, ?_, ?_⟩
  · simp only [Road.dot, side, heading]
    linear_combination (Real.cos p.pitch * Real.sin p.pitch * Real.sin p.roll) * Real.sin_sq_add_cos_sq p.yaw
  · rw [leftEdge, show position p - p.nl • side p - position p = (-p.nl) • side p by module, hlen, abs_neg]
  · rw [rightEdge, show position p + p.nr • side p - position p = p.nr • side p by module, hlen]

/-! ## C204: optimality -/

/-- C204, the part that holds. No track that meets the equations exactly, within the ranges around the
starting guess and with an arclength factor between 0.9 and 1.11, has a lower misfit than the one returned
by an optimiser that minimises. Missing: the closing element of a closed circuit with elevation lacks the
terms of pitch and roll (C117), so it is excluded; and the misfit uses the distances to the closed
boundaries, of open circuits too (C205). -/
theorem C204_optimal_partial (lib : Library) (hfind : FindsClosest lib.find) (D : List Vec3 → Vec3 → ℝ)
    (hD : Measures true D) (opt : Optimiser) (hopt : RightSize opt) (hmin : Minimises opt)
    (st : Settings) (k : Kind) (closed : Bool) (hkc : k = .flat ∨ closed = false)
    (left right : List Vec3) (h2l : 2 ≤ left.length) (h2r : 2 ≤ right.length) (c : Centerline)
    (h2c : 2 ≤ c.r.length) (hu : Usable closed left right c) (res : Fitted)
    (hres : compute lib opt st k closed left right c = .ok res) (guess : List (Point ℝ)) (dir : ℤ)
    (hg : startGuess lib k closed st.dmax left right c = .ok (guess, dir))
    (f : ℝ) (pts : List (Point ℝ)) (hf : 9 / 10 ≤ f) (hf' : f ≤ 111 / 100)
    (hn : pts.length = c.s.length) (hk : ∀ p ∈ pts, keep k p = p)
    (hob : Obeys k closed dir left right 0 (c.s.map (f * ·)) (f * c.length) pts)
    (hnear : Near k st.deg st.limits 0 guess pts) :
    misfit D k closed st.weights left right c.r res.s res.length res.points
      ≤ misfit D k closed st.weights left right c.r (c.s.map (f * ·)) (f * c.length) pts := by
  obtain ⟨ang, guess', su, f₀, hg', hG, hsu, hP, ho, hn', hk', h1, h2, -⟩ :=
    compute_result lib opt hopt st k closed left right c hu res hres
  rw [hg'] at hg
  obtain ⟨rfl, hdir⟩ := Prod.mk.inj (Res.ok.inj hg)
  have hs0 : c.s ≠ [] := by
    intro h
    have := hu.first
    rw [h] at this
    cases this
  have hpos := List.length_pos_iff.2 hs0
  have hE : Elements su.problem.closed c.s c.length su.problem.ds := by
    rw [hP.closed_, hP.ds]; exact hP.elements.2
  have hval : ∀ (g : ℝ) (l : List (Point ℝ)), l.length = c.s.length → ∃ cost rs,
      evaluate su.problem g (circuitOf lib su.problem.kind st.dmax left right c.r su.problem.ds l).nodes
        = .ok (cost, rs) ∧ su.nlp.value (g :: l.flatMap (writes k)) = .ok (cost :: rs) := by
    intro g l hl
    obtain ⟨cost, rs, e1, -, e3⟩ := value_vector lib st su.problem left right c.r l
      (List.ne_nil_of_length_pos (by omega))
      (by rw [hP.ds, hP.elements.2.length, hP.closed_, hl]) g
    rw [hP.kind, hP.closed_, hl, ← hu.points] at e3
    exact ⟨cost, rs, e1, by rw [hP.value]; exact e3⟩
  have hcost : ∀ (g : ℝ) (l : List (Point ℝ)) (cost : ℝ) (rs : List ℝ), l.length = c.s.length →
      (∀ p ∈ l, keep k p = p) →
      evaluate su.problem g (circuitOf lib su.problem.kind st.dmax left right c.r su.problem.ds l).nodes
        = .ok (cost, rs) →
      cost = misfit D k closed st.weights left right c.r (c.s.map (g * ·)) (g * c.length) l := by
    intro g l cost rs hl hlk hev
    have := cost_eq lib hfind D hD st.dmax su.problem (by rw [hP.kind, hP.closed_]; exact hkc) left right c.r
      h2l h2r h2c l (by rw [hP.kind]; exact hlk) c.s c.length hl hs0 hE g cost rs hev
    rw [hP.kind, hP.closed_, hP.weights] at this
    exact this
  obtain ⟨c1, r1, e1, v1⟩ := hval f₀ res.points (by rw [hn', hu.points])
  obtain ⟨c2, r2, e2, v2⟩ := hval f pts hn
  rw [h1, h2, ← hcost f₀ res.points c1 r1 (by rw [hn', hu.points]) hk' e1, ← hcost f pts c2 r2 hn hk e2]
  refine hmin su.nlp c1 r1 _ c2 r2 (by rw [ho]) (by rw [ho]; exact v1) ?_ ?_ v2 ?_
  · rw [hP.start, vector_length, vector_length, hG.length, hu.points, hn]
  · rw [hP.lower, hP.upper, within_iff k _ _ _ _ _ _ (by rw [hn, hG.length, hu.points])]
    exact ⟨⟨by linarith, by linarith⟩, hnear⟩
  · intro r hr
    have := (obeys_iff lib st.dmax su.problem left right c.r pts (by rw [hP.kind]; exact hk) c.s c.length hn
      hs0 hE hP.leftFirst hP.rightFirst hP.leftLast hP.rightLast f 0 c2 r2 e2).2
      (by rw [hP.kind, hP.closed_, hP.direction, hdir]; exact hob) r hr
    exact abs_eq_zero.1 (le_antisymm this (abs_nonneg r))

/-! ## C206: the starting guess -/

/-- C206. The starting guess: the points of the estimate; rates that are differences of their quantities,
those of the heading of a closed circuit with one turn; without elevation the distances to the measured
boundaries as half-widths, with elevation the half-width of the estimate. -/
theorem C206_guess (lib : Library) (hfind : FindsClosest lib.find) (k : Kind) (closed : Bool) (dmax : ℝ)
    (left right : List Vec3) (h2l : 2 ≤ left.length) (h2r : 2 ≤ right.length) (c : Centerline)
    (hu : Usable closed left right c) :
    ∃ pts dir, startGuess lib k closed dmax left right c = .ok (pts, dir) ∧ pts.length = c.s.length ∧
      Consistent closed dir (len (c.r.headD 0 - c.r.getLastD 0)) c.s pts ∧
      (closed = true → dir = 1 ∨ dir = -1) ∧ (closed = false → dir = 0) ∧
      ∀ (i : Nat) (r h : Vec3), c.r[i]? = some r → c.toRight[i]? = some h → ∃ p, pts[i]? = some p ∧
        p.x = r.1 ∧ p.y = r.2.1 ∧ (k = .elevated → p.z = r.2.2) ∧
        (k = .flat → p.z = 0 ∧ p.pitch = 0 ∧ p.roll = 0) ∧
        (k = .flat → ∃ dl dr, SquaredDistance (vertices closed left) r dl ∧
          SquaredDistance (vertices closed right) r dr ∧ p.nl = Real.sqrt dl ∧ p.nr = Real.sqrt dr) ∧
        (k = .elevated → p.nl = len h ∧ p.nr = len h) := by
  obtain ⟨ang, pts, dir, hg, hG⟩ := startGuess_ok lib k closed dmax left right c hu
  refine ⟨pts, dir, hg, by rw [hG.length, hu.points], hG.consistent, ?_, ?_, ?_⟩
  · rintro rfl
    rw [hG.dir, if_pos rfl]
    unfold direction
    split
    · exact .inl rfl
    · exact .inr rfl
  · rintro rfl
    rw [hG.dir, if_neg (by decide)]
  · intro i r h hr hh
    have hi : i < c.r.length := (List.getElem?_eq_some_iff.1 hr).1
    obtain ⟨p, hp, hx, hy, hz, -, hpi, hro, hnl, hnr⟩ := hG.at_ i hi
    rw [show c.r.getD i 0 = r by rw [List.getD_eq_getElem?_getD, hr]; rfl] at hx hy hz
    refine ⟨p, hp, hx, hy, ?_, ?_, ?_, ?_⟩
    · rintro rfl; exact hz
    · rintro rfl
      have hraw := hG.raw
      unfold angles at hraw
      simp only at hraw
      generalize rawHeadings closed (c.r.map fun p => (p.1, p.2.1)) = R at hraw
      cases R with
      | ok l =>
        obtain rfl := Res.ok.inj hraw
        refine ⟨hz, ?_, ?_⟩
        · rw [hpi, List.getD_eq_getElem?_getD]
          simp only [List.map_map, Function.comp_def, List.getElem?_map]
          cases l[i]? <;> rfl
        · rw [hro, List.getD_eq_getElem?_getD]
          simp only [List.map_map, Function.comp_def, List.getElem?_map]
          cases l[i]? <;> rfl
      | throw => cases hraw
      | ub => cases hraw
    · rintro rfl
      have key : ∀ line : List Vec3, 2 ≤ line.length → ∃ d, SquaredDistance (vertices closed line) r d ∧
          ((follow (fun p i => lib.find line p closed i dmax) 0 c.r).map fun f => Real.sqrt f.2).getD i 0
            = Real.sqrt d := by
        intro line hl
        obtain ⟨i', e⟩ := follow_get (fun p i => lib.find line p closed i dmax) c.r 0 i r hr
        exact ⟨_, hfind line r closed i' dmax hl,
          getD_of_get (by rw [List.getElem?_map, e]; rfl)⟩
      obtain ⟨dl, h1, h2⟩ := key left h2l
      obtain ⟨dr, h3, h4⟩ := key right h2r
      exact ⟨dl, dr, h1, h3, hnl.trans h2, hnr.trans h4⟩
    · rintro rfl
      have key : (c.toRight.map normV).getD i 0 = len h :=
        getD_of_get (by rw [List.getElem?_map, hh]; rfl)
      exact ⟨hnl.trans key, hnr.trans key⟩

/-- C206. The heading of the starting guess changes by at most half a turn from point to point. Without
elevation it is the direction to the next point; with elevation the direction of travel points to the next
point and the direction across the road to the side of the right boundary. -/
theorem C206_heading (lib : Library) (hw : WrapsToPi lib.wrap) (k : Kind) (closed : Bool) (dmax : ℝ)
    (left right : List Vec3) (c : Centerline) (hu : Usable closed left right c) (pts : List (Point ℝ))
    (dir : ℤ) (hg : startGuess lib k closed dmax left right c = .ok (pts, dir)) :
    (∀ (i : Nat) (p p' : Point ℝ), pts[i]? = some p → pts[i + 1]? = some p' →
      |p'.yaw - p.yaw| ≤ Real.pi) ∧
    (k = .flat → ∀ (i : Nat) (p : Point ℝ) (a b : Vec3), pts[i]? = some p → c.r[i]? = some a →
      Next closed c.r i b → ∃ d : ℝ, 0 ≤ d ∧ b.1 = a.1 + d * Real.cos p.yaw ∧ b.2.1 = a.2.1 + d * Real.sin p.yaw) ∧
    (k = .elevated → Recovers lib.euler → ∀ (i : Nat) (p : Point ℝ) (a b h : Vec3), pts[i]? = some p →
      c.r[i]? = some a → c.toRight[i]? = some h → Next closed c.r i b →
      Road.cross (b - a) h ≠ (0, 0, 0) →
      (∃ d : ℝ, 0 < d ∧ b - a = d • heading p) ∧ 0 < Road.dot (side p) h) := by
  obtain ⟨ang, pts', dir', hg', hG⟩ := startGuess_ok lib k closed dmax left right c hu
  rw [hg] at hg'
  obtain ⟨rfl, rfl⟩ := Prod.mk.inj (Res.ok.inj hg')
  obtain ⟨hlen, hsame, -, hcont⟩ := C60_continuous hw (ang.map fun a => a.1)
  have ht : c.toRight.length = c.r.length := by rw [hu.halves, hu.points]
  have hal : ang.length = c.r.length := by
    obtain ⟨l, e, e'⟩ := angles_ok lib k closed c (by
      intro h
      have := hu.first
      rw [List.eq_nil_of_length_eq_zero (by rw [← hu.points, h]; rfl : c.s.length = 0)] at this
      cases this) (by rw [hu.points]; exact hu.many) ht
    rw [hG.raw] at e
    obtain rfl := Res.ok.inj e
    exact e'
  rw [List.length_map, hal] at hlen
  have hat : ∀ (i : Nat) (p : Point ℝ), pts[i]? = some p →
      ∃ y : ℝ, (unwrap lib.wrap (ang.map fun a => a.1))[i]? = some y ∧
      p.yaw = y ∧ ∃ z : ℝ × ℝ × ℝ, ang[i]? = some z ∧ p.pitch = z.2.1 ∧ p.roll = z.2.2 ∧ SameAngle p.yaw z.1 := by
    intro i p hp
    have hi : i < c.r.length := by rw [← hG.length]; exact (List.getElem?_eq_some_iff.1 hp).1
    obtain ⟨p', hp', -, -, -, hy, hpi, hro, -⟩ := hG.at_ i hi
    rw [hp] at hp'
    obtain rfl := Option.some.inj hp'
    have e := List.getElem?_eq_getElem (show i < (unwrap lib.wrap (ang.map fun a => a.1)).length by omega)
    have ea := List.getElem?_eq_getElem (show i < ang.length by omega)
    refine ⟨_, e, by rw [hy, getD_of_get e], _, ea, ?_, ?_, ?_⟩
    · rw [hpi, getD_of_get (by rw [List.getElem?_map, ea]; rfl)]
    · rw [hro, getD_of_get (by rw [List.getElem?_map, ea]; rfl)]
    · rw [hy, getD_of_get e]
      exact hsame i _ _ e (by rw [List.getElem?_map, ea]; rfl)
  refine ⟨?_, ?_, ?_⟩
  · intro i p p' hp hp'
    obtain ⟨y, hy, e, -⟩ := hat i p hp
    obtain ⟨y', hy', e', -⟩ := hat (i + 1) p' hp'
    rw [e, e']
    exact hcont i y y' hy hy'
  · rintro rfl i p a b hp ha hb
    obtain ⟨y, hy, e, -⟩ := hat i p hp
    have hraw := hG.raw
    unfold angles at hraw
    simp only at hraw
    rcases hR : rawHeadings closed (c.r.map fun p => (p.1, p.2.1)) with l | _ | _
    · rw [hR] at hraw
      obtain rfl := Res.ok.inj hraw
      simp only [List.map_map, Function.comp_def, List.map_id'] at hy
      have := (C60_towards_next hw closed _ l hR i (a.1, a.2.1) (b.1, b.2.1) y
        (by rw [List.getElem?_map, ha]; rfl) (by
          unfold Next at hb
          cases closed <;> simp only [if_true, Bool.false_eq_true, if_false, List.length_map] at hb ⊢ <;>
            (rw [List.getElem?_map, hb]; rfl)) hy).2
      rw [e]
      exact ⟨_, Real.sqrt_nonneg _, this⟩
    · rw [hR] at hraw; cases hraw
    · rw [hR] at hraw; cases hraw
  · rintro rfl hrec i p a b h hp ha hh hb hcr
    obtain ⟨-, -, -, z, hz, hpi, hro, hsa⟩ := hat i p hp
    have hraw := hG.raw
    unfold angles at hraw
    simp only at hraw
    rcases hS : steps closed c.r with ts | _ | _
    · rw [hS] at hraw
      obtain rfl := Res.ok.inj hraw
      have hst := steps_get closed c.r ts hS i a b ha hb
      rw [List.getElem?_map, zip_get hst hh] at hz
      obtain rfl := Option.some.inj hz
      obtain ⟨t, n, bb, hfr, h1, h2, -, h4, -, -, h7, ⟨d, hd, hstep⟩, h9, -⟩ := C121_frame (b - a) h hcr
      obtain ⟨e1, e2⟩ := hrec t n bb h1 h2 h4 h7
        { p with yaw := (lib.euler (guessFrame (b - a) h)).1 } (by rw [hpi, hro, ← hfr])
      have c1 := hsa.cos_eq
      have c2 := hsa.sin_eq
      have f1 : heading p = t := by
        rw [← e1]
        simp only [heading, c1, c2]
      have f2 : side p = n := by
        rw [← e2]
        simp only [side, c1, c2]
      rw [f1, f2]
      exact ⟨⟨d, hd, by rw [hstep]; rfl⟩, h9⟩
    · rw [hS] at hraw; cases hraw
    · rw [hS] at hraw; cases hraw

end Verif.Fit

namespace Verif.Fit

open Verif.Road (Vec3)
open Verif.Preprocessor

/-! ## C205: the measured boundaries -/

/-- C205, the part that holds. On a closed circuit without elevation the cost of a track is its misfit with
the measured boundaries. (With elevation the closing element lacks two terms, C117.) -/
theorem C205_closed_partial (lib : Library) (hfind : FindsClosest lib.find) (D : List Vec3 → Vec3 → ℝ)
    (closed : Bool) (hc : closed = true) (hD : Measures closed D) (st : Settings) (left right : List Vec3)
    (h2l : 2 ≤ left.length) (h2r : 2 ≤ right.length) (c : Centerline) (h2c : 2 ≤ c.r.length)
    (hu : Usable closed left right c) :
    ∃ su, setup lib st .flat closed left right c = .ok su ∧ ∀ (f : ℝ) (pts : List (Point ℝ)),
      pts.length = c.s.length → (∀ p ∈ pts, keep .flat p = p) → ∃ rs,
        su.nlp.value (f :: pts.flatMap (writes .flat)) = .ok
          (misfit D .flat closed st.weights left right c.r (c.s.map (f * ·)) (f * c.length) pts :: rs) := by
  subst hc
  obtain ⟨ang, guess, dir, su, hg, hG, hsu, hP⟩ := setup_ok lib st .flat true left right c hu
  have hs0 : c.s ≠ [] := by
    intro h
    have := hu.first
    rw [h] at this
    cases this
  have hpos := List.length_pos_iff.2 hs0
  have hE : Elements su.problem.closed c.s c.length su.problem.ds := by
    rw [hP.closed_, hP.ds]; exact hP.elements.2
  refine ⟨su, hsu, fun f pts hn hk => ?_⟩
  obtain ⟨cost, rs, e1, -, e3⟩ := value_vector lib st su.problem left right c.r pts
    (List.ne_nil_of_length_pos (by omega)) (by rw [hP.ds, hP.elements.2.length, hP.closed_, hn]) f
  rw [hP.kind, hP.closed_, hn, ← hu.points] at e3
  have := cost_eq lib hfind D hD st.dmax su.problem (.inl hP.kind) left right c.r
    h2l h2r h2c pts (by rw [hP.kind]; exact hk) c.s c.length hn hs0 hE f cost rs e1
  rw [hP.kind, hP.closed_, hP.weights] at this
  exact ⟨rs, by rw [hP.value, ← this]; exact e3⟩

/-- Boundaries bent outwards, whose ends are joined by straight lines along the road. -/
def bentLeft : List Vec3 := [(0, 0, 0), (5, -5, 0), (10, 0, 0)]

@[inherit_doc bentLeft]
def bentRight : List Vec3 := [(0, 4, 0), (5, 9, 0), (10, 4, 0)]

/-- A straight estimate in the middle. -/
def bentLine : Centerline := ⟨[0, 2], [(4, 2, 0), (6, 2, 0)], [(0, 2, 0), (0, 2, 0)], 2⟩

/-- A point of a straight track along the first axis, two metres to either side. -/
def straightPoint (x : ℝ) : Point ℝ := ⟨x, 2, 0, 0, 0, 0, 0, 0, 0, 2, 2, 0, 0, 0, 0, 0⟩

theorem straight_left (x : ℝ) : leftEdge (straightPoint x) = (x, 0, 0) := by
  ext <;> simp [leftEdge, straightPoint, position, side]

theorem straight_right (x : ℝ) : rightEdge (straightPoint x) = (x, 4, 0) := by
  ext <;> simp [rightEdge, straightPoint, position, side]; norm_num

theorem squaredDistance_zero {line : List Vec3} {p : Vec3} (h : OnLine line p) :
    SquaredDistance line p 0 := by
  refine ⟨⟨p, h, ?_⟩, fun q _ => sq_nonneg _⟩
  rw [sub_self, sq, len_sq]
  simp

theorem squaredDistance_nonneg {line : List Vec3} {p : Vec3} {d : ℝ} (h : SquaredDistance line p d) :
    0 ≤ d := by
  obtain ⟨⟨q, -, rfl⟩, -⟩ := h
  exact sq_nonneg _

theorem squaredDistance_pos {line : List Vec3} {p : Vec3} {d : ℝ} (h : SquaredDistance line p d)
    (hp : ¬ OnLine line p) : 0 < d := by
  obtain ⟨⟨q, hq, rfl⟩, -⟩ := h
  refine pow_pos (len_pos fun e => hp ?_) 2
  rwa [e]

/-- C205, the disagreement. On an open circuit the cost is not the misfit with the measured boundaries: the
searches treat them as closed. Two boundaries bent outwards, and a track that runs along the straight
lines between their ends: its cost is zero, although it is away from both boundaries. -/
theorem C205_false (lib : Library) (hfind : FindsClosest lib.find) (deg dmax : ℝ) (limits : Limits ℝ) :
    ∃ su rs, Usable false bentLeft bentRight bentLine ∧
      setup lib ⟨⟨1, 0, 0, 0, 0, 0⟩, limits, dmax, deg⟩ .flat false bentLeft bentRight bentLine = .ok su ∧
      su.nlp.value (1 :: [straightPoint 4, straightPoint 6].flatMap (writes .flat)) = .ok (0 :: rs) ∧
      ∀ D, Measures false D → 0 < misfit D .flat false ⟨1, 0, 0, 0, 0, 0⟩ bentLeft bentRight bentLine.r
        bentLine.s bentLine.length [straightPoint 4, straightPoint 6] := by
  have hu : Usable false bentLeft bentRight bentLine :=
    ⟨rfl, rfl, rfl, fun _ => rfl, fun _ => le_rfl, by simp [bentLeft], by simp [bentRight]⟩
  obtain ⟨ang, guess, dir, su, hg, hG, hsu, hP⟩ :=
    setup_ok lib ⟨⟨1, 0, 0, 0, 0, 0⟩, limits, dmax, deg⟩ .flat false bentLeft bentRight bentLine hu
  have hE : Elements su.problem.closed bentLine.s bentLine.length su.problem.ds := by
    rw [hP.closed_, hP.ds]; exact hP.elements.2
  have hk : ∀ p ∈ [straightPoint 4, straightPoint 6], keep .flat p = p := by
    intro p hp
    simp only [List.mem_cons, List.not_mem_nil, or_false] at hp
    rcases hp with rfl | rfl <;> rfl
  obtain ⟨cost, rs, e1, -, e3⟩ := value_vector lib ⟨⟨1, 0, 0, 0, 0, 0⟩, limits, dmax, deg⟩ su.problem
    bentLeft bentRight bentLine.r [straightPoint 4, straightPoint 6] (by simp)
    (by rw [hP.ds, hP.elements.2.length, hP.closed_]; rfl) 1
  rw [hP.kind, hP.closed_] at e3
  have hexp : ∀ D : List Vec3 → Vec3 → ℝ, ∀ s L, s = [0, 2] → misfit D .flat false ⟨1, 0, 0, 0, 0, 0⟩ bentLeft bentRight
      bentLine.r s L [straightPoint 4, straightPoint 6]
      = (D bentLeft (4, 0, 0) + D bentRight (4, 4, 0)) + (D bentLeft (6, 0, 0) + D bentRight (6, 4, 0)) := by
    rintro D s L rfl
    simp [misfit, integral, trapezoid, density, straight_left, straight_right]
  have hclosed := cost_eq lib hfind (fun line p => (lib.find line p true 0 0).2.1)
    (fun line p h => hfind line p true 0 0 h) dmax su.problem (.inl hP.kind) bentLeft bentRight bentLine.r
    (by simp [bentLeft]) (by simp [bentRight]) (by simp [bentLine]) _ (by rw [hP.kind]; exact hk)
    bentLine.s bentLine.length rfl (by simp [bentLine]) hE 1 cost rs e1
  rw [hP.kind, hP.closed_, hP.weights, hexp _ _ _ (by simp [bentLine])] at hclosed
  have hz : ∀ line (p : Vec3), 2 ≤ line.length → OnLine (vertices true line) p →
      (lib.find line p true 0 0).2.1 = 0 := fun line p h hp =>
    squaredDistance_unique (hfind line p true 0 0 h) (squaredDistance_zero hp)
  rw [hz _ _ (by simp [bentLeft]) ⟨2, 6 / 10, by norm_num, by norm_num, (10, 0, 0), (0, 0, 0), rfl, rfl, by
      ext <;> norm_num⟩,
    hz _ _ (by simp [bentRight]) ⟨2, 6 / 10, by norm_num, by norm_num, (10, 4, 0), (0, 4, 0), rfl, rfl, by
      ext <;> norm_num⟩,
    hz _ _ (by simp [bentLeft]) ⟨2, 4 / 10, by norm_num, by norm_num, (10, 0, 0), (0, 0, 0), rfl, rfl, by
      ext <;> norm_num⟩,
    hz _ _ (by simp [bentRight]) ⟨2, 4 / 10, by norm_num, by norm_num, (10, 4, 0), (0, 4, 0), rfl, rfl, by
      ext <;> norm_num⟩] at hclosed
  refine ⟨su, rs, hu, hsu, ?_, fun D hD => ?_⟩
  · rw [hP.value]
    rw [show cost = 0 by rw [hclosed]; norm_num] at e3
    exact e3
  · rw [hexp D bentLine.s bentLine.length rfl]
    have h1 : 0 < D bentLeft (4, 0, 0) := by
      refine squaredDistance_pos (hD bentLeft _ (by simp [bentLeft])) fun h => ?_
      rcases (onLine_cons _ _ _ _).1 h with ⟨t, h0, h1, e⟩ | h
      · have e1 := congrArg Prod.fst e
        have e2 := congrArg (fun v => v.2.1) e
        simp at e1 e2
        linarith
      · rcases (onLine_cons _ _ _ _).1 h with ⟨t, h0, h1, e⟩ | h
        · have e1 := congrArg Prod.fst e
          have e2 := congrArg (fun v => v.2.1) e
          simp at e1 e2
          linarith
        · exact onLine_single _ _ h
    have n1 := squaredDistance_nonneg (hD bentLeft (6, 0, 0) (by simp [bentLeft]))
    have n2 := squaredDistance_nonneg (hD bentRight (4, 4, 0) (by simp [bentRight]))
    have n3 := squaredDistance_nonneg (hD bentRight (6, 4, 0) (by simp [bentRight]))
    linarith

/-! ## C202: the constructors -/

theorem asks_eq {deg R : ℝ} {origin : Coord ℝ} {req : Request} {how : Meshing} (h : Asks deg R origin req how) :
    how = req.meshing deg R origin := by
  cases req with
  | elements n => exact h
  | openElements start finish n => exact h
  | distribution f sEnd dsEnd => exact h
  | breakpoints sizes =>
    obtain ⟨l, rfl, hl, hi⟩ := h
    refine congrArg Meshing.breakpoints (List.ext_getElem? fun i => ?_)
    rw [List.getElem?_map]
    rcases hs : sizes[i]? with _ | ⟨c, size⟩
    · rw [List.getElem?_eq_none_iff] at hs
      rw [List.getElem?_eq_none (by omega)]
      rfl
    · rw [hi i c size hs]
      refine congrArg some (Prod.ext (Prod.ext ?_ (Prod.ext ?_ rfl)) rfl)
      · show R * Real.cos (origin.latitude * deg) * ((c.longitude - origin.longitude) * deg)
          = (c.longitude * deg - origin.longitude * deg) * R * Real.cos (origin.latitude * deg)
        ring
      · show -(R * ((c.latitude - origin.latitude) * deg)) = -(c.latitude * deg - origin.latitude * deg) * R
        ring

/-- C202. The whole way from coordinates to the track: when the coordinates can be trimmed and converted,
both boundaries have at least two points, no two consecutive points of the right one and of the middle line
coincide, and the sizes asked for are small against the lengths, the constructor ends and either returns a
track or throws; it throws exactly when the optimiser does not report success. The circuit is closed unless start
and finish were given, and its mesh is the one asked for: of `n` elements it has `n` points, and one more if it is
open. What it returns is what C203..C209 speak of. -/
theorem C202_constructor (lib : Library) (hlin : Interpolates lib.linear) (hfind : FindsOnLine lib.find)
    (find : List (Coord ℝ) → Mesh.Flat ℝ → Mesh.Closest (Mesh.Flat ℝ)) (opt : Optimiser)
    (hopt : RightSize opt) (st : Settings) (ratio R : ℝ) (k : Kind) (req : Request)
    (closed : Bool) (hcl : Closes req closed) (left right : List (Coord ℝ)) (cl cr : List (Coord ℝ))
    (huse : Uses find left right req cl cr) (ml mr : List Vec3)
    (hm : transformCoordinates st.deg R cl cr = .ok (ml, mr)) (origin : Coord ℝ)
    (ho : cr.head? = some origin) (how : Meshing) (hhow : Asks st.deg R origin req how) (h2l : 2 ≤ ml.length) (h2r : 2 ≤ mr.length)
    (hmov : Moving (vertices closed mr))
    (hs : Suits how ratio (perimeter (vertices closed mr)))
    (hmid : ∀ fuel pairs, sampled lib closed ratio st.dmax how ml mr fuel
      = some (.ok pairs) → ∃ mids, mids = vertices closed (pairs.map fun p => (1 / 2 : ℝ) • (p.1 + p.2)) ∧
      2 ≤ mids.length ∧ Moving mids ∧ Suits how ratio (perimeter mids)) :
    ∃ fuel c su r, preprocess lib find opt st ratio R k req left right fuel = some r ∧
      averaged lib closed ratio st.dmax how ml mr fuel = some (.ok c) ∧
      Usable closed ml mr c ∧ setup lib st k closed ml mr c = .ok su ∧
      r = compute lib opt st k closed ml mr c ∧
      (∀ n, req = .elements n → c.s.length = n) ∧
      (∀ start finish n, req = .openElements start finish n → c.s.length = n + 1) ∧
      ((opt su.nlp).success = true → ∃ res, r = .ok res) ∧ ((opt su.nlp).success = false → r = .throw) := by
  obtain rfl : closed = req.closed := by cases req <;> exact hcl
  obtain rfl : how = req.meshing st.deg R origin := asks_eq hhow
  have hco : req.coordinates find left right = .ok (cl, cr) := by
    cases req with
    | openElements start finish n => exact huse
    | _ =>
      obtain ⟨rfl, rfl⟩ := huse
      rfl
  obtain ⟨fuel, pairs, nodes, hsam, -⟩ := C200_cross_sections lib hlin hfind req.closed ratio st.dmax
    (req.meshing st.deg R origin) ml mr h2l h2r hmov hs
  obtain ⟨mids, hmids, hm2, hmm, hms⟩ := hmid fuel pairs hsam
  obtain ⟨fuel', c, hc, h1, h2, h3, h4, h5, h6, h7, h8, -⟩ := C200_halfway lib hlin req.closed ratio st.dmax
    (req.meshing st.deg R origin) ml mr fuel pairs hsam mids hmids hm2 hmm hms
  have hu : Usable req.closed ml mr c := by
    refine ⟨h1, h2, h4, h6, fun hcl => ?_, List.ne_nil_of_length_pos (by omega),
      List.ne_nil_of_length_pos (by omega)⟩
    have hl := h6 hcl
    match hcs : c.s with
    | [] => rw [hcs] at h4; cases h4
    | [a] =>
      rw [hcs] at h4 hl
      have e1 : a = 0 := Option.some.inj h4
      have e2 : a = c.length := Option.some.inj hl
      have := perimeter_pos hm2 hmm
      rw [← h3, ← e2, e1] at this
      exact absurd this (lt_irrefl 0)
    | a :: b :: l => simp
  obtain ⟨su, hsu, -, -, -, -, hok, hthrow⟩ := C202_outcome lib opt hopt st k req.closed ml mr c hu
  refine ⟨fuel', c, su, compute lib opt st k req.closed ml mr c, ?_, hc, hu, hsu, rfl, ?_, ?_, hok, hthrow⟩
  rotate_left
  · rintro n rfl
    exact (h8 n rfl).1
  · rintro start finish n rfl
    exact (h8 n rfl).1
  unfold preprocess
  rw [hco]
  simp only [andThen]
  rw [hm]
  simp only
  rw [show idx cr 0 = .ok origin by rw [idx_eq_ok, ← List.head?_eq_getElem?, ho]]
  simp only
  rw [hc]

end Verif.Fit

/-! ## A case that meets the hypotheses: a straight road -/

namespace Verif.Fit

open Verif.Road (Vec3)
open Verif.Preprocessor

theorem vertices_two (closed : Bool) (line : List Vec3) (h : 2 ≤ line.length) :
    2 ≤ (vertices closed line).length := by
  unfold vertices
  split
  · rw [List.length_append]; omega
  · exact h

/-- A search that finds the closest point. -/
noncomputable def exSearch (line : List Vec3) (p : Vec3) (closed : Bool) (_ : Nat) (_ : ℝ) :
    Vec3 × ℝ × Nat × Nat :=
  if h : 2 ≤ line.length then
    (0, (closest_exists (vertices closed line) p (vertices_two closed line h)).choose, 0, 0)
  else (0, 0, 0, 0)

theorem exSearch_closest : FindsClosest exSearch := by
  intro line p closed i d h
  unfold exSearch
  rw [dif_pos h]
  exact (closest_exists (vertices closed line) p (vertices_two closed line h)).choose_spec

/-- The library with that search. -/
noncomputable def exClosest : Library :=
  ⟨exSearch, exLinear, fun a => toIocMod Real.two_pi_pos (-Real.pi) a, fun _ => 0⟩

theorem exClosest_wraps : WrapsToPi exClosest.wrap := by
  refine ⟨fun a => ?_, fun a => ⟨-toIocDiv Real.two_pi_pos (-Real.pi) a, ?_⟩⟩
  · have := toIocMod_mem_Ioc Real.two_pi_pos (-Real.pi) a
    rw [abs_le]
    exact ⟨le_of_lt this.1, this.2.trans (by linarith)⟩
  · have := toIocMod_add_toIocDiv_zsmul Real.two_pi_pos (-Real.pi) a
    rw [zsmul_eq_mul] at this
    push_cast
    unfold exClosest
    linarith

/-- The estimate of the centreline of the straight road `exLeft`, `exRight`. -/
def exEstimate : Centerline := ⟨[0, 10], [(0, 2, 0), (10, 2, 0)], [(0, 2, 0), (0, 2, 0)], 10⟩

theorem exEstimate_usable : Usable false exLeft exRight exEstimate :=
  ⟨rfl, rfl, rfl, fun _ => rfl, fun _ => le_rfl, by simp [exLeft], by simp [exRight]⟩

/-- Settings of the examples: only the distances to the boundaries count. -/
def exSettings : Settings := ⟨⟨1, 0, 0, 0, 0, 0⟩, ⟨1, 1, 1⟩, 100, 1⟩

theorem exWrap_zero : exClosest.wrap 0 = 0 := by
  change toIocMod Real.two_pi_pos (-Real.pi) 0 = 0
  rw [toIocMod_eq_self]
  exact ⟨by linarith [Real.pi_pos], by linarith [Real.pi_pos]⟩

/-- The squared distance to a line along the first axis. -/
theorem straight_distance (x y : ℝ) (hx : 0 ≤ x) (hx' : x ≤ 10) :
    SquaredDistance (vertices false [(0, y, 0), (10, y, 0)]) (x, 2, 0) ((y - 2) ^ 2) := by
  constructor
  · refine ⟨(x, y, 0), ⟨0, x / 10, by positivity, by linarith, (0, y, 0), (10, y, 0), rfl, rfl, ?_⟩, ?_⟩
    · ext <;> simp
    · rw [sq (len _), len_sq]
      simp
      ring
  · rintro q hq
    rcases (onLine_cons _ _ _ _).1 hq with ⟨t, h0, h1, rfl⟩ | h
    · rw [sq (len _), len_sq]
      simp
      nlinarith [sq_nonneg (t * 10 - x)]
    · exact absurd h (onLine_single _ _)

theorem exSearch_left (x : ℝ) (hx : 0 ≤ x) (hx' : x ≤ 10) (i : Nat) (d : ℝ) :
    (exSearch exLeft (x, 2, 0) false i d).2.1 = 4 :=
  squaredDistance_unique (exSearch_closest exLeft _ false i d le_rfl) (by
    have := straight_distance x 0 hx hx'
    norm_num at this
    exact this)

theorem exSearch_right (x : ℝ) (hx : 0 ≤ x) (hx' : x ≤ 10) (i : Nat) (d : ℝ) :
    (exSearch exRight (x, 2, 0) false i d).2.1 = 4 :=
  squaredDistance_unique (exSearch_closest exRight _ false i d le_rfl) (by
    have := straight_distance x 4 hx hx'
    norm_num at this
    exact this)

/-- The starting guess of the straight road is the straight track. -/
theorem exGuess : startGuess exClosest .flat false 100 exLeft exRight exEstimate
    = .ok ([straightPoint 0, straightPoint 10], 0) := by
  have hq : Real.sqrt 4 = 2 := by
    rw [show (4 : ℝ) = 2 ^ 2 by norm_num]
    exact Real.sqrt_sq (by norm_num)
  have hat : atan2 (2 - 2) (10 - 0) = 0 := by
    unfold atan2
    rw [show (⟨10 - 0, 2 - 2⟩ : ℂ) = ((10 : ℝ) : ℂ) by apply Complex.ext <;> norm_num]
    exact Complex.arg_ofReal_of_nonneg (by norm_num)
  have hl0 := exSearch_left 0 le_rfl (by norm_num)
  have hl1 := exSearch_left 10 (by norm_num) le_rfl
  have hr0 := exSearch_right 0 le_rfl (by norm_num)
  have hr1 := exSearch_right 10 (by norm_num) le_rfl
  have hw : widths exClosest .flat false 100 exLeft exRight exEstimate = ([2, 2], [2, 2]) := by
    simp only [widths, exEstimate, follow, List.map_cons, List.map_nil, exClosest, hl0, hl1, hr0, hr1, hq]
  have ha : angles exClosest .flat false exEstimate = .ok [(0, 0, 0), (0, 0, 0)] := by
    simp only [angles, exEstimate, rawHeadings, List.map_cons, List.map_nil, List.head?_cons, chords, hat]
    rfl
  unfold startGuess
  rw [ha, Res.bind_ok]
  simp only [hw]
  simp [unwrap, unwrapFrom, exWrap_zero, slopes, differences, exEstimate, Res.bind, straightPoint,
    List.range_succ]

end Verif.Fit

namespace Verif.Fit

open Verif.Road (Vec3)
open Verif.Preprocessor

/-- A vector that meets the bounds and the constraints of a problem, with its cost. -/
def Feasible (nlp : Nlp) (x : List ℝ) (cost : ℝ) : Prop :=
  x.length = nlp.start.length ∧ Within 0 x nlp.lower nlp.upper ∧
    ∃ rs, nlp.value x = .ok (cost :: rs) ∧ ∀ r ∈ rs, r = 0

/-- A solution of a problem. -/
def Solves (nlp : Nlp) (x : List ℝ) : Prop :=
  ∃ cost, Feasible nlp x cost ∧ ∀ y cost', Feasible nlp y cost' → cost ≤ cost'

open Classical in
/-- An optimiser that finds a solution if there is one and fails otherwise. -/
noncomputable def exOptimiser : Optimiser := fun nlp =>
  if h : ∃ x, Solves nlp x then ⟨true, h.choose⟩ else ⟨false, nlp.start⟩

theorem exOptimiser_rightSize : RightSize exOptimiser := by
  intro nlp
  unfold exOptimiser
  split
  · rename_i h
    obtain ⟨cost, hf, -⟩ := h.choose_spec
    exact hf.1
  · rfl

theorem exOptimiser_solves (nlp : Nlp) (h : (exOptimiser nlp).success = true) :
    Solves nlp (exOptimiser nlp).x := by
  unfold exOptimiser at h ⊢
  split
  · rename_i h'
    exact h'.choose_spec
  · rename_i h'
    rw [dif_neg h'] at h
    exact Bool.noConfusion h

theorem exOptimiser_reliable : Reliable 0 0 exOptimiser := by
  intro nlp cost rs h hv
  obtain ⟨cost', ⟨-, hw, rs', hv', hr⟩, -⟩ := exOptimiser_solves nlp h
  rw [hv] at hv'
  obtain ⟨rfl, rfl⟩ := List.cons.inj (Res.ok.inj hv')
  exact ⟨hw, fun r hr' => by rw [hr r hr', abs_zero]⟩

theorem exOptimiser_minimises : Minimises exOptimiser := by
  intro nlp cost rs y cost' rs' h hv hy hw hv' hr'
  obtain ⟨c₀, ⟨-, -, rs₀, hv₀, -⟩, hmin⟩ := exOptimiser_solves nlp h
  rw [hv] at hv₀
  obtain ⟨rfl, rfl⟩ := List.cons.inj (Res.ok.inj hv₀)
  exact hmin y cost' ⟨hy, hw, rs', hv', hr'⟩

theorem straight_obeys : Obeys .flat false 0 exLeft exRight 0 [0, 10] 10
    [straightPoint 0, straightPoint 10] := by
  refine ⟨?_, fun h => Bool.noConfusion h, ?_, ?_⟩
  · intro Q i a b s₀ s₁ hQ hQ' ha hb h0 h1
    match i with
    | 0 =>
      obtain rfl := Option.some.inj ha
      obtain rfl := Option.some.inj hb
      obtain rfl := Option.some.inj h0
      obtain rfl := Option.some.inj h1
      cases Q <;> simp [straightPoint, Point.get, rate, Quantity.isState, Quantity.used] at hQ hQ' ⊢; norm_num
    | i + 1 => simp at hb
  · intro a l r ha hl hr
    obtain rfl := Option.some.inj ha
    obtain rfl := Option.some.inj hl
    obtain rfl := Option.some.inj hr
    simp [offset, straightPoint, position]
  · intro _ a l r ha hl hr
    obtain rfl := Option.some.inj ha
    obtain rfl := Option.some.inj hl
    obtain rfl := Option.some.inj hr
    simp [offset, straightPoint, position]

theorem straight_near : Near .flat 1 ⟨1, 1, 1⟩ 0 [straightPoint 0, straightPoint 10]
    [straightPoint 0, straightPoint 10] := by
  intro Q i p g hQ hp hg
  rw [hp] at hg
  obtain rfl := Option.some.inj hg
  have : ∃ x, p = straightPoint x := by
    match i with
    | 0 => exact ⟨0, (Option.some.inj hp).symm⟩
    | 1 => exact ⟨10, (Option.some.inj hp).symm⟩
    | i + 2 => simp at hp
  obtain ⟨x, rfl⟩ := this
  cases Q <;> simp [straightPoint, Point.get, allowed]

/-- Squared distances to the boundaries, taken as closed lines. -/
noncomputable def exDistance (line : List Vec3) (p : Vec3) : ℝ := (exSearch line p true 0 0).2.1

theorem exDistance_measures : Measures true exDistance := fun line p h =>
  exSearch_closest line p true 0 0 h

theorem exMisfit (s : ℝ) (L : ℝ) (a b : Point ℝ) :
    misfit exDistance .flat false exSettings.weights exLeft exRight exEstimate.r [0, s] L [a, b]
      = s / 2 * ((exDistance exLeft (leftEdge a) + exDistance exRight (rightEdge a))
        + (exDistance exLeft (leftEdge b) + exDistance exRight (rightEdge b))) := by
  simp [misfit, integral, trapezoid, density, exSettings]

theorem exDistance_nonneg (line : List Vec3) (p : Vec3) (h : 2 ≤ line.length) : 0 ≤ exDistance line p :=
  squaredDistance_nonneg (exDistance_measures line p h)

theorem exDistance_zero (x y : ℝ) (hx : 0 ≤ x) (hx' : x ≤ 10) :
    exDistance [(0, y, 0), (10, y, 0)] (x, y, 0) = 0 :=
  squaredDistance_unique (exDistance_measures _ _ le_rfl) (squaredDistance_zero
    ⟨0, x / 10, by positivity, by linarith, (0, y, 0), (10, y, 0), rfl, rfl, by ext <;> simp⟩)

/-- The fit of the straight road succeeds with that optimiser. -/
theorem exFit : ∃ res, compute exClosest exOptimiser exSettings .flat false exLeft exRight exEstimate
    = .ok res := by
  obtain ⟨su, hsu, -, -, -, -, hok, -⟩ := C202_outcome exClosest exOptimiser exOptimiser_rightSize exSettings
    .flat false exLeft exRight exEstimate exEstimate_usable
  obtain ⟨ang, guess, dir, su', hg, hG, hsu', hP⟩ :=
    setup_ok exClosest exSettings .flat false exLeft exRight exEstimate exEstimate_usable
  rw [hsu] at hsu'
  obtain rfl := Res.ok.inj hsu'
  have hgd := exGuess.symm.trans hg
  obtain ⟨rfl, rfl⟩ := Prod.mk.inj (Res.ok.inj hgd)
  have hE : Elements su.problem.closed exEstimate.s exEstimate.length su.problem.ds := by
    rw [hP.closed_, hP.ds]; exact hP.elements.2
  have hval : ∀ (g : ℝ) (l : List (Point ℝ)), l.length = 2 → (∀ p ∈ l, keep .flat p = p) → ∃ rs,
      evaluate su.problem g (circuitOf exClosest su.problem.kind exSettings.dmax exLeft exRight exEstimate.r
        su.problem.ds l).nodes = .ok (misfit exDistance .flat false exSettings.weights exLeft exRight
          exEstimate.r (exEstimate.s.map (g * ·)) (g * exEstimate.length) l, rs) ∧
      su.nlp.value (g :: l.flatMap (writes .flat)) = .ok (misfit exDistance .flat false exSettings.weights
        exLeft exRight exEstimate.r (exEstimate.s.map (g * ·)) (g * exEstimate.length) l :: rs) := by
    intro g l hl hk
    obtain ⟨cost, rs, e1, -, e3⟩ := value_vector exClosest exSettings su.problem exLeft exRight exEstimate.r l
      (List.ne_nil_of_length_pos (by omega))
      (by rw [hP.ds, hP.elements.2.length, hP.closed_, hl]; rfl) g
    have := cost_eq exClosest exSearch_closest exDistance exDistance_measures exSettings.dmax su.problem
      (.inl hP.kind) exLeft exRight exEstimate.r le_rfl le_rfl le_rfl l (by rw [hP.kind]; exact hk)
      exEstimate.s exEstimate.length hl (by simp [exEstimate]) hE g cost rs e1
    rw [hP.kind, hP.closed_, hP.weights] at this
    rw [hP.kind, hP.closed_, hl] at e3
    subst this
    exact ⟨rs, e1, by rw [hP.value]; exact e3⟩
  have hk0 : ∀ p ∈ [straightPoint 0, straightPoint 10], keep .flat p = p := by
    intro p hp
    simp only [List.mem_cons, List.not_mem_nil, or_false] at hp
    rcases hp with rfl | rfl <;> rfl
  refine hok ?_
  have hsol : ∃ x, Solves su.nlp x := by
    refine ⟨1 :: [straightPoint 0, straightPoint 10].flatMap (writes .flat), 0, ?_, ?_⟩
    · obtain ⟨rs, e1, e2⟩ := hval 1 _ rfl hk0
      rw [show exEstimate.s.map ((1 : ℝ) * ·) = [0, 10] by simp [exEstimate], exMisfit, straight_left,
        straight_right, straight_left, straight_right] at e1 e2
      rw [exLeft, exRight, exDistance_zero _ _ le_rfl (by norm_num), exDistance_zero _ _ le_rfl (by norm_num),
        exDistance_zero _ _ (by norm_num) le_rfl, exDistance_zero _ _ (by norm_num) le_rfl] at e1 e2
      norm_num at e1 e2
      refine ⟨?_, ?_, rs, e2, ?_⟩
      · rw [hP.start]
      · rw [hP.lower, hP.upper, within_iff .flat _ _ _ _ _ _ rfl]
        exact ⟨⟨by norm_num, by norm_num⟩, straight_near⟩
      · intro r hr
        have := (obeys_iff exClosest exSettings.dmax su.problem exLeft exRight exEstimate.r _
          (by rw [hP.kind]; exact hk0) exEstimate.s exEstimate.length rfl (by simp [exEstimate]) hE hP.leftFirst
          hP.rightFirst hP.leftLast hP.rightLast 1 0 0 rs e1).2 (by
            rw [hP.kind, hP.closed_, hP.direction]
            have := straight_obeys
            simpa [exEstimate] using this) r hr
        exact abs_eq_zero.1 (le_antisymm this (abs_nonneg r))
    · rintro y cost ⟨hy, hw, rs, hv, -⟩
      obtain ⟨g, l, hl, rfl, hk⟩ := represent .flat 2 y (by rw [hy, hP.start]; rfl)
      obtain ⟨rs', -, e2⟩ := hval g l hl hk
      rw [e2] at hv
      obtain ⟨rfl, -⟩ := List.cons.inj (Res.ok.inj hv)
      rw [hP.lower, hP.upper, within_iff .flat _ _ _ _ _ _ hl] at hw
      match l, hl with
      | [a, b], _ =>
        rw [show exEstimate.s.map (g * ·) = [0, g * 10] by simp [exEstimate], exMisfit]
        have n1 := exDistance_nonneg exLeft (leftEdge a) le_rfl
        have n2 := exDistance_nonneg exRight (rightEdge a) le_rfl
        have n3 := exDistance_nonneg exLeft (leftEdge b) le_rfl
        have n4 := exDistance_nonneg exRight (rightEdge b) le_rfl
        have : 0 ≤ g := by linarith [hw.1.1]
        positivity
  unfold exOptimiser
  rw [dif_pos hsol]

/-- C202, C203, C204: all the hypotheses at once, and a result. -/
example : FindsClosest exClosest.find ∧ Measures true exDistance ∧ RightSize exOptimiser ∧
    Reliable 0 0 exOptimiser ∧ Minimises exOptimiser ∧ Usable false exLeft exRight exEstimate ∧
    (∃ res, compute exClosest exOptimiser exSettings .flat false exLeft exRight exEstimate = .ok res) ∧
    startGuess exClosest .flat false exSettings.dmax exLeft exRight exEstimate
      = .ok ([straightPoint 0, straightPoint 10], 0) ∧
    Obeys .flat false 0 exLeft exRight 0 [0, 10] 10 [straightPoint 0, straightPoint 10] ∧
    Near .flat exSettings.deg exSettings.limits 0 [straightPoint 0, straightPoint 10]
      [straightPoint 0, straightPoint 10] :=
  ⟨exSearch_closest, exDistance_measures, exOptimiser_rightSize, exOptimiser_reliable, exOptimiser_minimises,
    exEstimate_usable, exFit, exGuess, straight_obeys, straight_near⟩

/-- C202: an optimiser that fails. -/
example : ∃ opt, RightSize opt ∧
    compute exClosest opt exSettings .flat false exLeft exRight exEstimate = .throw := by
  have hs : RightSize fun nlp => ⟨false, nlp.start⟩ := fun _ => rfl
  obtain ⟨su, -, -, -, -, -, -, h⟩ := C202_outcome exClosest _ hs exSettings
    .flat false exLeft exRight exEstimate exEstimate_usable
  exact ⟨_, hs, h rfl⟩

/-- C206: the hypotheses. -/
example : FindsClosest exClosest.find ∧ WrapsToPi exClosest.wrap ∧ 2 ≤ exLeft.length ∧ 2 ≤ exRight.length ∧
    Usable false exLeft exRight exEstimate ∧
    Road.cross (((10, 2, 0) : Vec3) - (0, 2, 0)) (0, 2, 0) ≠ (0, 0, 0) := by
  refine ⟨exSearch_closest, exClosest_wraps, le_rfl, le_rfl, exEstimate_usable, fun h => ?_⟩
  have := congrArg (fun v => v.2.2) h
  norm_num [Road.cross] at this

/-- C205: a closed circuit, there and back. -/
example : Usable true exLeft exRight ⟨[0, 10], [(0, 2, 0), (10, 2, 0)], [(0, 2, 0), (0, 2, 0)], 20⟩ ∧
    Measures true exDistance :=
  ⟨⟨rfl, rfl, rfl, fun h => Bool.noConfusion h, fun h => Bool.noConfusion h, by simp [exLeft],
    by simp [exRight]⟩, exDistance_measures⟩

/-- C202: coordinates of the straight road, on the equator, as a closed circuit of two elements. -/
example : Interpolates exLibrary.linear ∧ FindsOnLine exLibrary.find ∧ RightSize exOptimiser ∧
    ∃ (left right : List (Coord ℝ)) (origin : Coord ℝ),
      Closes (.elements 2) true ∧ Asks 1 1 origin (.elements 2) (.equispaced 2) ∧
      transformCoordinates 1 1 left right = .ok (exRight, exLeft) ∧ right.head? = some origin ∧
      Moving (vertices true exLeft) ∧ ∀ fuel pairs, sampled exLibrary true 2 100
          (.equispaced 2) exRight exLeft fuel = some (.ok pairs) →
        ∃ mids, mids = vertices true (pairs.map fun p => (1 / 2 : ℝ) • (p.1 + p.2)) ∧ 2 ≤ mids.length ∧
          Moving mids := by
  have hmov : ∀ x y : ℝ, x ≠ 0 → Moving (vertices true [(0, y, 0), (x, y, 0)]) := by
    intro x y hx j a b ha hb
    match j with
    | 0 =>
      obtain rfl := Option.some.inj ha
      obtain rfl := Option.some.inj hb
      intro h
      exact hx (congrArg Prod.fst h).symm
    | 1 =>
      obtain rfl := Option.some.inj ha
      obtain rfl := Option.some.inj hb
      intro h
      exact hx (congrArg Prod.fst h)
    | j + 2 => simp [vertices] at hb
  refine ⟨exLinear_interpolates, exFind_onLine, exOptimiser_rightSize, [⟨0, -4, 0⟩, ⟨10, -4, 0⟩],
    [⟨0, 0, 0⟩, ⟨10, 0, 0⟩], ⟨0, 0, 0⟩, rfl, rfl, ?_, rfl, hmov 10 0 (by norm_num), ?_⟩
  · simp [transformCoordinates, toCartesian, exLeft, exRight]
  · intro fuel pairs h
    have hd : distance ((0 : ℝ), (0 : ℝ), (0 : ℝ)) (10, 0, 0) = 10 := by
      rw [distance_eq, len, show Road.dot (((10, 0, 0) : Vec3) - (0, 0, 0)) ((10, 0, 0) - (0, 0, 0)) = 10 ^ 2 by
        norm_num [Road.dot]]
      exact Real.sqrt_sq (by norm_num)
    have hd' : distance ((10 : ℝ), (0 : ℝ), (0 : ℝ)) (0, 0, 0) = 10 := by
      rw [distance_eq, len, show Road.dot (((0, 0, 0) : Vec3) - (10, 0, 0)) ((0, 0, 0) - (10, 0, 0)) = 10 ^ 2 by
        norm_num [Road.dot]]
      exact Real.sqrt_sq (by norm_num)
    have e : pairs = [((0, 0, 0), (0, 4, 0)), ((10, 0, 0), (0, 4, 0))] := by
      unfold sampled exLeft exRight at h
      simp [closeLine, andThen, along, Mesh.linspace, Mesh.arclengthsFrom, hd, hd',
        exLibrary, exFind, dropClosing, follow, List.range_succ] at h
      rw [← h, show lengthOf [(0 : ℝ), 10, 10 + 10] / 2 = 10 by norm_num [lengthOf]]
      norm_num [exLinear]
    subst e
    refine ⟨_, rfl, by simp [vertices], ?_⟩
    have := hmov 5 2 (by norm_num)
    norm_num
    exact this

end Verif.Fit
