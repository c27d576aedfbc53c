import Verif.Spec.CircuitMoves
import Verif.Props.CircuitFit
import Verif.Lemmas.PathMoves

/-! Lemmas on the fit of circuits whose measured boundaries are moved or turned. -/

set_option autoImplicit false

namespace Verif.Fit

open Verif.Road (Vec3)
open Verif.Path (turnPoint)
open Verif.Preprocessor

/-! ### Points and lines -/

theorem turnPoint_dist (angle : ℝ) (d p q : Vec3) : len (turnPoint angle d p - turnPoint angle d q) = len (p - q) := by
  have h := Real.sin_sq_add_cos_sq angle
  obtain ⟨x, y, z⟩ := p
  obtain ⟨x', y', z'⟩ := q
  unfold len
  congr 1
  simp only [Road.dot, turnPoint, Prod.mk_sub_mk]
  linear_combination ((x - x') ^ 2 + (y - y') ^ 2) * h

theorem turnPoint_divide (angle : ℝ) (d a b : Vec3) (t : ℝ) :
    turnPoint angle d (a + t • (b - a)) = turnPoint angle d a + t • (turnPoint angle d b - turnPoint angle d a) := by
  obtain ⟨x, y, z⟩ := a
  obtain ⟨x', y', z'⟩ := b
  simp only [turnPoint, Prod.mk_sub_mk, Prod.smul_mk, Prod.mk_add_mk, smul_eq_mul, Prod.mk.injEq]
  exact ⟨by ring, by ring, by ring⟩

theorem vertices_turn (angle : ℝ) (d : Vec3) (closed : Bool) (line : List Vec3) :
    vertices closed (turnLine angle d line) = turnLine angle d (vertices closed line) := by
  cases closed <;> simp [vertices, turnLine, List.map_take]

theorem onLine_turn {angle : ℝ} {d : Vec3} {line : List Vec3} {p : Vec3} (h : OnLine line p) :
    OnLine (turnLine angle d line) (turnPoint angle d p) := by
  obtain ⟨j, t, h0, h1, a, b, ha, hb, rfl⟩ := h
  exact ⟨j, t, h0, h1, turnPoint angle d a, turnPoint angle d b, by rw [turnLine, List.getElem?_map, ha]; rfl,
    by rw [turnLine, List.getElem?_map, hb]; rfl, turnPoint_divide _ _ _ _ _⟩

theorem onLine_turned {angle : ℝ} {d : Vec3} {line : List Vec3} {q : Vec3} (h : OnLine (turnLine angle d line) q) :
    ∃ p, OnLine line p ∧ turnPoint angle d p = q := by
  obtain ⟨j, t, h0, h1, a, b, ha, hb, rfl⟩ := h
  rw [turnLine, List.getElem?_map, Option.map_eq_some_iff] at ha hb
  obtain ⟨a, ha, rfl⟩ := ha
  obtain ⟨b, hb, rfl⟩ := hb
  exact ⟨_, ⟨j, t, h0, h1, a, b, ha, hb, rfl⟩, turnPoint_divide _ _ _ _ _⟩

theorem squared_turn {angle : ℝ} {d : Vec3} {line : List Vec3} {p : Vec3} {x : ℝ} (h : SquaredDistance line p x) :
    SquaredDistance (turnLine angle d line) (turnPoint angle d p) x := by
  obtain ⟨⟨q, hq, e⟩, hle⟩ := h
  refine ⟨⟨turnPoint angle d q, onLine_turn hq, by rw [turnPoint_dist, e]⟩, fun q' hq' => ?_⟩
  obtain ⟨q, hq, rfl⟩ := onLine_turned hq'
  rw [turnPoint_dist]
  exact hle q hq

theorem squared_unique {line : List Vec3} {p : Vec3} {x y : ℝ} (h : SquaredDistance line p x) (h' : SquaredDistance line p y) :
    x = y := by
  obtain ⟨⟨q, hq, e⟩, hle⟩ := h
  obtain ⟨⟨q', hq', e'⟩, hle'⟩ := h'
  refine le_antisymm ?_ ?_
  · rw [e']; exact hle q' hq'
  · rw [e]; exact hle' q hq

theorem measure_turn {closed : Bool} {D : List Vec3 → Vec3 → ℝ} (hD : Measures closed D) (angle : ℝ) (d : Vec3) (line : List Vec3)
    (h2 : 2 ≤ line.length) (p : Vec3) : D (turnLine angle d line) (turnPoint angle d p) = D line p := by
  refine squared_unique (hD (turnLine angle d line) (turnPoint angle d p) (by rw [turnLine, List.length_map]; exact h2)) ?_
  rw [vertices_turn]
  exact squared_turn (hD line p h2)

theorem find_turn {find : List Vec3 → Vec3 → Bool → Nat → ℝ → Vec3 × ℝ × Nat × Nat} (hf : FindsClosest find) (angle : ℝ) (d : Vec3)
    (line : List Vec3) (h2 : 2 ≤ line.length) (p : Vec3) (closed : Bool) (i j : Nat) (x : ℝ) :
    (find (turnLine angle d line) (turnPoint angle d p) closed i x).2.1 = (find line p closed j x).2.1 := by
  refine squared_unique (hf (turnLine angle d line) (turnPoint angle d p) closed i x (by rw [turnLine, List.length_map]; exact h2)) ?_
  rw [vertices_turn]
  exact squared_turn (hf line p closed j x h2)

theorem follow_turn {find : List Vec3 → Vec3 → Bool → Nat → ℝ → Vec3 × ℝ × Nat × Nat} (hf : FindsClosest find) (angle : ℝ) (d : Vec3)
    (line : List Vec3) (h2 : 2 ≤ line.length) (closed : Bool) (x : ℝ) : ∀ (l : List Vec3) (i j : Nat),
    (follow (fun p i => find (turnLine angle d line) p closed i x) i (turnLine angle d l)).map (fun f => Real.sqrt f.2)
      = (follow (fun p i => find line p closed i x) j l).map fun f => Real.sqrt f.2
  | [], _, _ => rfl
  | p :: l, i, j => by
    simp only [turnLine, List.map_cons, follow]
    congr 1
    · rw [show line.map (turnPoint angle d) = turnLine angle d line from rfl, find_turn hf angle d line h2 p closed i j x]
    · exact follow_turn hf angle d line h2 closed x l _ _

/-! ### Tracks -/

theorem position_turn (angle : ℝ) (d : Vec3) (p : Point ℝ) : position (turnTrack angle d p) = turnPoint angle d (position p) := rfl

theorem edges_turn (angle : ℝ) (d : Vec3) (p : Point ℝ) : leftEdge (turnTrack angle d p) = turnPoint angle d (leftEdge p) ∧
    rightEdge (turnTrack angle d p) = turnPoint angle d (rightEdge p) := by
  simp only [leftEdge, rightEdge, position, side, turnTrack, turnPoint, Prod.smul_mk, Prod.mk_sub_mk, Prod.mk_add_mk, smul_eq_mul,
    Real.cos_add, Real.sin_add, Prod.mk.injEq]
  exact ⟨⟨by ring, by ring, by ring⟩, by ring, by ring, by ring⟩

theorem offset_turn (angle : ℝ) (d a b p : Vec3) :
    offset (turnPoint angle d a) (turnPoint angle d b) (turnPoint angle d p) = offset a b p := by
  have h := Real.sin_sq_add_cos_sq angle
  obtain ⟨x, y, z⟩ := a
  obtain ⟨x', y', z'⟩ := b
  obtain ⟨u, v, w⟩ := p
  unfold offset
  congr 1
  · simp only [turnPoint]
    linear_combination ((x - x') * (v - y') - (y - y') * (u - x')) * h
  · simp only [Road.dot, turnPoint, Prod.mk_sub_mk]
    linear_combination ((x - x') ^ 2 + (y - y') ^ 2) * h

theorem keep_turn {k : Kind} {angle : ℝ} {d : Vec3} {p : Point ℝ} (hd : k = .flat → d.2.2 = 0) (h : keep k p = p) :
    keep k (turnTrack angle d p) = turnTrack angle d p := by
  cases k with
  | elevated => rfl
  | flat =>
    have hz : p.z = 0 := (congrArg Point.z h).symm
    rw [← h]
    simp only [keep, turnTrack, turnPoint, position, hd rfl, add_zero]

/-- The change of a state over an element, by the trapezoidal rule. -/
def Changes (k : Kind) (h : ℝ) (t : Quantity → ℝ) (a b : Point ℝ) : Prop :=
  ∀ Q : Quantity, Q.used k = true → Q.isState = true → |b.get Q + t Q - a.get Q - h / 2 * (rate a Q + rate b Q)| ≤ 0

theorem changes_turn {k : Kind} {h : ℝ} {t : Quantity → ℝ} (tx : t .x = 0) (ty : t .y = 0) {a b : Point ℝ} (H : Changes k h t a b)
    (angle : ℝ) (d : Vec3) : Changes k h t (turnTrack angle d a) (turnTrack angle d b) := by
  have hx := H .x (by cases k <;> rfl) rfl
  have hy := H .y (by cases k <;> rfl) rfl
  simp only [abs_nonpos_iff, Point.get, rate, tx, ty] at hx hy
  intro Q h1 h2
  cases Q
  case x =>
    simp only [abs_nonpos_iff, Point.get, rate, tx, turnTrack, turnPoint, position, Real.cos_add]
    linear_combination Real.cos angle * hx - Real.sin angle * hy
  case y =>
    simp only [abs_nonpos_iff, Point.get, rate, ty, turnTrack, turnPoint, position, Real.sin_add]
    linear_combination Real.sin angle * hx + Real.cos angle * hy
  case z =>
    have := H .z h1 h2
    simp only [abs_nonpos_iff, Point.get, rate, turnTrack, turnPoint, position] at this ⊢
    linear_combination this
  case yaw =>
    have := H .yaw h1 h2
    simp only [abs_nonpos_iff, Point.get, rate, turnTrack] at this ⊢
    linear_combination this
  all_goals exact H _ h1 h2

theorem turnTrack_of {angle : ℝ} {d v : Vec3} {q : Point ℝ} (h : turnPoint angle d (position q) = v) :
    turnTrack angle d q = { q with x := v.1, y := v.2.1, z := v.2.2, yaw := q.yaw + angle } := by subst h; rfl

theorem turnTrack_back (angle : ℝ) (d : Vec3) : ∃ d' : Vec3, (d.2.2 = 0 → d'.2.2 = 0) ∧
    (∀ p, turnPoint (-angle) d' (turnPoint angle d p) = p) ∧ (∀ p, turnPoint (-angle) 0 (turnPoint angle 0 p) = p) ∧
    ∀ p, turnTrack (-angle) d' (turnTrack angle d p) = p := by
  refine ⟨(-(Real.cos angle * d.1 + Real.sin angle * d.2.1), Real.sin angle * d.1 - Real.cos angle * d.2.1, -d.2.2),
    fun h => by simp [h], Path.turnPoint_back angle d, fun p => ?_, fun p => ?_⟩
  · have := Path.turnPoint_back angle 0 p
    rwa [show ((-(Real.cos angle * (0 : Vec3).1 + Real.sin angle * (0 : Vec3).2.1),
      Real.sin angle * (0 : Vec3).1 - Real.cos angle * (0 : Vec3).2.1, -(0 : Vec3).2.2) : Vec3) = 0 by
        simp only [Prod.fst_zero, Prod.snd_zero, mul_zero, add_zero, neg_zero, sub_zero]; rfl] at this
  · have := Path.turnPoint_back angle d (position p)
    rw [← position_turn] at this
    rw [turnTrack_of this]
    simp only [turnTrack, position, add_neg_cancel_right]

theorem turnLine_back {angle : ℝ} {d d' : Vec3} (h : ∀ p, turnPoint (-angle) d' (turnPoint angle d p) = p) (line : List Vec3) :
    turnLine (-angle) d' (turnLine angle d line) = line := by
  simp [turnLine, Function.comp_def, h]

/-! ### The starting guess -/

theorem differences_turn (angle : ℝ) (d : Vec3) : ∀ l : List Vec3,
    differences (turnLine angle d l) = turnLine angle 0 (differences l)
  | [] => rfl
  | [_] => rfl
  | a :: b :: l => by
    have ih := differences_turn angle d (b :: l)
    simp only [turnLine, List.map_cons, differences, List.cons.injEq] at ih ⊢
    refine ⟨?_, ih⟩
    obtain ⟨x, y, z⟩ := a
    obtain ⟨x', y', z'⟩ := b
    simp only [turnPoint, Prod.mk_sub_mk, Prod.fst_zero, Prod.snd_zero, Prod.mk.injEq]
    exact ⟨by ring, by ring, by ring⟩

theorem turn_zero (d p : Vec3) : turnPoint 0 d p = p + d := by
  obtain ⟨x, y, z⟩ := p
  obtain ⟨u, v, w⟩ := d
  simp [turnPoint]

theorem turnLine_zero (l : List Vec3) : turnLine 0 0 l = l := by
  unfold turnLine
  rw [List.map_congr_left (g := id) fun p _ => by rw [turn_zero, add_zero]; rfl, List.map_id]

theorem steps_turn (angle : ℝ) (d : Vec3) (closed : Bool) (r : List Vec3) :
    steps closed (turnLine angle d r) = (steps closed r).map (turnLine angle 0) := by
  unfold steps
  rw [differences_turn]
  simp only [turnLine, List.head?_map, List.getLast?_map]
  rcases r.head? with _ | a
  · rfl
  rcases r.getLast? with _ | b
  · rfl
  cases closed
  · rcases (differences r).getLast? with _ | x <;> simp [Res.map, turnLine]
  · have e : turnPoint angle d a - turnPoint angle d b = turnPoint angle 0 (a - b) := ?_
    · simp only [Option.map_some, if_true, Res.map, e, turnLine, List.map_append, List.map_cons, List.map_nil]
    obtain ⟨x, y, z⟩ := a
    obtain ⟨x', y', z'⟩ := b
    simp only [turnPoint, Prod.mk_sub_mk, Prod.fst_zero, Prod.snd_zero, Prod.mk.injEq]
    exact ⟨by ring, by ring, by ring⟩

theorem chords_move (d : Vec3) : ∀ l : List Vec3,
    chords ((turnLine 0 d l).map fun p => (p.1, p.2.1)) = chords (l.map fun p => (p.1, p.2.1))
  | [] => rfl
  | [_] => rfl
  | a :: b :: l => by
    have ih := chords_move d (b :: l)
    simp only [turnLine, List.map_cons, chords, turn_zero, Prod.fst_add, Prod.snd_add, add_sub_add_right_eq_sub] at ih ⊢
    rw [ih]

theorem angles_move (lib : Library) (k : Kind) (closed : Bool) (d : Vec3) (c : Centerline) :
    angles lib k closed (c.turned 0 d) = angles lib k closed c := by
  cases k with
  | elevated =>
    simp only [angles, Centerline.turned, steps_turn, turnLine_zero]
    rcases steps closed c.r with ts | _ | _ <;> simp [Res.map, turnLine_zero]
  | flat =>
    simp only [angles, Centerline.turned]
    congr 1
    unfold rawHeadings
    rw [chords_move]
    simp only [turnLine, List.map_map, List.head?_map, List.getLast?_map]
    rcases c.r.head? with _ | a
    · rfl
    rcases c.r.getLast? with _ | b
    · rfl
    simp [turn_zero]

theorem differences_shift (x : ℝ) : ∀ l : List ℝ, differences (l.map (· + x)) = differences l
  | [] => rfl
  | [_] => rfl
  | a :: b :: l => by
    have ih := differences_shift x (b :: l)
    simp only [List.map_cons, differences, add_sub_add_right_eq_sub] at ih ⊢
    rw [ih]

theorem slopes_shift (closed : Bool) (s v : List ℝ) (turn chord x : ℝ) :
    slopes closed s (v.map (· + x)) turn chord = slopes closed s v turn chord := by
  unfold slopes
  rw [differences_shift]
  simp only [List.head?_map, List.getLast?_map]
  rcases v.head? with _ | a
  · rfl
  rcases v.getLast? with _ | b
  · rfl
  simp only [Option.map_some]
  rw [show a + x + turn - (b + x) = a + turn - b by ring]

theorem direction_shift (a b x : ℝ) : direction (a + x) (b + x) = direction a b := by
  unfold direction
  simp

theorem widths_turn (lib : Library) (hf : FindsClosest lib.find) (k : Kind) (closed : Bool) (dmax angle : ℝ) (d : Vec3)
    (left right : List Vec3) (h2l : 2 ≤ left.length) (h2r : 2 ≤ right.length) (c : Centerline) :
    widths lib k closed dmax (turnLine angle d left) (turnLine angle d right) (c.turned angle d)
      = widths lib k closed dmax left right c := by
  cases k with
  | flat =>
    simp only [widths, Centerline.turned]
    rw [follow_turn hf angle d left h2l closed dmax c.r 0 0, follow_turn hf angle d right h2r closed dmax c.r 0 0]
  | elevated =>
    have hn : ∀ v : Vec3, normV (turnPoint angle 0 v) = normV v := by
      intro v
      have h := Real.sin_sq_add_cos_sq angle
      obtain ⟨x, y, z⟩ := v
      unfold normV
      congr 1
      simp only [turnPoint, Prod.fst_zero, Prod.snd_zero]
      linear_combination (x ^ 2 + y ^ 2) * h
    simp only [widths, Centerline.turned, turnLine, List.map_map, Function.comp_def, hn]

theorem usable_turn {closed : Bool} {left right : List Vec3} {c : Centerline} (angle : ℝ) (d : Vec3) (h : Usable closed left right c) :
    Usable closed (turnLine angle d left) (turnLine angle d right) (c.turned angle d) where
  points := by simp only [Centerline.turned, turnLine, List.length_map]; exact h.points
  halves := by simp only [Centerline.turned, turnLine, List.length_map]; exact h.halves
  first := h.first
  last := h.last
  many := h.many
  left := by simp [turnLine, h.left]
  right := by simp [turnLine, h.right]

theorem guess_turn (lib : Library) (hf : FindsClosest lib.find) (k : Kind) (closed : Bool) (dmax angle : ℝ) (d : Vec3)
    (hd : k = .flat → d.2.2 = 0) (left right : List Vec3) (h2l : 2 ≤ left.length) (h2r : 2 ≤ right.length) (c : Centerline)
    (hu : Usable closed left right c) (ang ang' : List (ℝ × ℝ × ℝ)) (ha : angles lib k closed c = .ok ang)
    (ha' : angles lib k closed (c.turned angle d) = .ok ang')
    (hy : unwrap lib.wrap (ang'.map fun a => a.1) = (unwrap lib.wrap (ang.map fun a => a.1)).map (· + angle))
    (hp : (ang'.map fun a => a.2.1) = ang.map fun a => a.2.1) (hr : (ang'.map fun a => a.2.2) = ang.map fun a => a.2.2)
    (guess : List (Point ℝ)) (dir : ℤ) (hg : startGuess lib k closed dmax left right c = .ok (guess, dir)) :
    startGuess lib k closed dmax (turnLine angle d left) (turnLine angle d right) (c.turned angle d)
      = .ok (guess.map (turnTrack angle d), dir) := by
  have hs0 : c.s ≠ [] := by
    intro h
    have := hu.first
    rw [h] at this
    cases this
  have hpos := List.length_pos_iff.2 hs0
  have hr0 : c.r ≠ [] := List.ne_nil_of_length_pos (by rw [hu.points]; exact hpos)
  obtain ⟨ang₁, hang, hal⟩ := angles_ok lib k closed c hr0 (by rw [hu.points]; exact hu.many) (by rw [hu.halves, hu.points])
  rw [ha] at hang
  obtain rfl := Res.ok.inj hang
  have hyl : (unwrap lib.wrap (ang.map fun a => a.1)).length = c.r.length := by
    rw [unwrap_length, List.length_map, hal]
  have hy0 : unwrap lib.wrap (ang.map fun a => a.1) ≠ [] :=
    List.ne_nil_of_length_pos (by rw [hyl]; exact List.length_pos_iff.2 hr0)
  have hget : ∀ i < c.r.length, (turnLine angle d c.r).getD i 0 = turnPoint angle d (c.r.getD i 0) := by
    intro i hi
    simp [turnLine, List.getD_eq_getElem?_getD, hi]
  have hchord : distance ((turnLine angle d c.r).getLastD 0) ((turnLine angle d c.r).headD 0)
      = distance (c.r.getLastD 0) (c.r.headD 0) := by
    obtain ⟨a, ha⟩ : ∃ a, c.r.head? = some a := ⟨_, List.head?_eq_some_head hr0⟩
    obtain ⟨b, hb⟩ : ∃ a, c.r.getLast? = some a := ⟨_, List.getLast?_eq_some_getLast hr0⟩
    simp only [List.getLastD_eq_getLast?, List.headD_eq_head?_getD, turnLine, List.head?_map, List.getLast?_map, ha, hb,
      Option.map_some, Option.getD_some]
    exact turnPoint_dist angle d a b
  have hdir : direction (((unwrap lib.wrap (ang.map fun a => a.1)).map (· + angle)).headD 0)
      (((unwrap lib.wrap (ang.map fun a => a.1)).map (· + angle)).getLastD 0)
        = direction ((unwrap lib.wrap (ang.map fun a => a.1)).headD 0) ((unwrap lib.wrap (ang.map fun a => a.1)).getLastD 0) := by
    obtain ⟨a, ha⟩ : ∃ a, (unwrap lib.wrap (ang.map fun a => a.1)).head? = some a := ⟨_, List.head?_eq_some_head hy0⟩
    obtain ⟨b, hb⟩ : ∃ a, (unwrap lib.wrap (ang.map fun a => a.1)).getLast? = some a := ⟨_, List.getLast?_eq_some_getLast hy0⟩
    simp only [List.getLastD_eq_getLast?, List.headD_eq_head?_getD, List.head?_map, List.getLast?_map, ha, hb,
      Option.map_some, Option.getD_some, direction_shift]
  unfold startGuess at hg ⊢
  rw [ha, Res.bind_ok] at hg
  rw [ha', Res.bind_ok, widths_turn lib hf k closed dmax angle d left right h2l h2r c, hy, hp, hr]
  simp only [slopes_shift, Centerline.turned, hchord, hdir] at hg ⊢
  simp only [Res.bind_eq_ok] at hg
  obtain ⟨v1, e1, v2, e2, v3, e3, v4, e4, v5, e5, v6, e6, v7, e7, v8, e8, e⟩ := hg
  simp only [e1, e2, e3, e4, e5, e6, e7, e8, Res.bind_ok, Res.ok.injEq, Prod.mk.injEq] at e ⊢
  obtain ⟨rfl, rfl⟩ := e
  refine ⟨?_, rfl⟩
  rw [List.map_map, show (turnLine angle d c.r).length = c.r.length by simp [turnLine]]
  refine List.map_congr_left fun i hi => ?_
  have hi := List.mem_range.1 hi
  have hyg : ((unwrap lib.wrap (ang.map fun a => a.1)).map (· + angle)).getD i 0
      = (unwrap lib.wrap (ang.map fun a => a.1)).getD i 0 + angle := by
    have : i < (unwrap lib.wrap (ang.map fun a => a.1)).length := by rw [hyl]; exact hi
    simp only [List.getD_eq_getElem?_getD, List.getElem?_map, List.getElem?_eq_getElem this, Option.map_some, Option.getD_some]
  rw [hget i hi, hyg]
  cases k with
  | flat =>
    have := hd rfl
    simp only [Function.comp_apply, turnTrack, turnPoint, position, this, add_zero]
  | elevated => rfl

/-! ### The headings of a circuit without elevation that is turned -/

theorem atan2_turn (angle x y : ℝ) (h : (x, y) ≠ (0, 0)) :
    SameAngle (atan2 (Real.sin angle * x + Real.cos angle * y) (Real.cos angle * x - Real.sin angle * y)) (atan2 y x + angle) := by
  have hz : (⟨x, y⟩ : ℂ) ≠ 0 := by
    intro e
    exact h (Prod.ext_iff.2 ⟨congrArg Complex.re e, congrArg Complex.im e⟩)
  have hw : (Complex.cos angle + Complex.sin angle * Complex.I : ℂ) ≠ 0 := by
    rw [← Complex.exp_mul_I]
    exact Complex.exp_ne_zero _
  have e : (⟨Real.cos angle * x - Real.sin angle * y, Real.sin angle * x + Real.cos angle * y⟩ : ℂ)
      = (⟨x, y⟩ : ℂ) * (Complex.cos angle + Complex.sin angle * Complex.I) := by
    rw [← Complex.ofReal_cos, ← Complex.ofReal_sin]
    apply Complex.ext
    · simp only [Complex.mul_re, Complex.add_re, Complex.add_im, Complex.mul_im, Complex.ofReal_re, Complex.ofReal_im, Complex.I_re,
        Complex.I_im]
      ring
    · simp only [Complex.mul_re, Complex.add_re, Complex.add_im, Complex.mul_im, Complex.ofReal_re, Complex.ofReal_im, Complex.I_re,
        Complex.I_im]
      ring
  have key := Complex.arg_mul_coe_angle hz hw
  rw [← e, ← Complex.ofReal_cos, ← Complex.ofReal_sin, ← Real.Angle.cos_coe, ← Real.Angle.sin_coe,
    Complex.arg_cos_add_sin_mul_I_coe_angle, ← Real.Angle.coe_add, Real.Angle.angle_eq_iff_two_pi_dvd_sub] at key
  obtain ⟨m, hm⟩ := key
  rw [Real.Angle.cos_coe, Real.Angle.sin_coe] at hm
  exact ⟨m, by unfold atan2; linarith⟩

theorem chord_turn (angle : ℝ) (d a b : Vec3) (h : (a.1, a.2.1) ≠ (b.1, b.2.1)) :
    SameAngle (atan2 ((turnPoint angle d b).2.1 - (turnPoint angle d a).2.1) ((turnPoint angle d b).1 - (turnPoint angle d a).1))
      (atan2 (b.2.1 - a.2.1) (b.1 - a.1) + angle) := by
  have := atan2_turn angle (b.1 - a.1) (b.2.1 - a.2.1) (by
    intro e
    simp only [Prod.mk.injEq, sub_eq_zero] at e
    exact h (Prod.ext_iff.2 ⟨e.1.symm, e.2.symm⟩))
  rw [show (turnPoint angle d b).2.1 - (turnPoint angle d a).2.1
      = Real.sin angle * (b.1 - a.1) + Real.cos angle * (b.2.1 - a.2.1) by simp only [turnPoint]; ring,
    show (turnPoint angle d b).1 - (turnPoint angle d a).1
      = Real.cos angle * (b.1 - a.1) - Real.sin angle * (b.2.1 - a.2.1) by simp only [turnPoint]; ring]
  exact this

theorem chords_turn (angle : ℝ) (d : Vec3) : ∀ l : List Vec3,
    (∀ (i : Nat) (a b : Vec3), l[i]? = some a → l[i + 1]? = some b → (a.1, a.2.1) ≠ (b.1, b.2.1)) →
    List.Forall₂ (fun y' y => SameAngle y' (y + angle)) (chords ((turnLine angle d l).map fun p => (p.1, p.2.1)))
      (chords (l.map fun p => (p.1, p.2.1)))
  | [], _ => .nil
  | [_], _ => .nil
  | a :: b :: l, h => by
    have ih := chords_turn angle d (b :: l) fun i x y hx hy => h (i + 1) x y (by simpa using hx) (by simpa using hy)
    simp only [turnLine, List.map_cons, chords] at ih ⊢
    exact .cons (chord_turn angle d a b (h 0 a b rfl rfl)) ih

theorem forall₂_last {α β : Type*} {R : α → β → Prop} {l : List α} {m : List β} (h : List.Forall₂ R l m) :
    (l.getLast? = none ∧ m.getLast? = none) ∨ ∃ a b, l.getLast? = some a ∧ m.getLast? = some b ∧ R a b := by
  induction h with
  | nil => exact .inl ⟨rfl, rfl⟩
  | @cons a b l m hab hl ih =>
    right
    rcases ih with ⟨h1, h2⟩ | ⟨x, y, h1, h2, h3⟩
    · rw [List.getLast?_eq_none_iff] at h1 h2
      subst h1 h2
      exact ⟨a, b, rfl, rfl, hab⟩
    · exact ⟨x, y, by rw [List.getLast?_cons, h1]; rfl, by rw [List.getLast?_cons, h2]; rfl, h3⟩

theorem headings_turn (angle : ℝ) (d : Vec3) (closed : Bool) (r : List Vec3) (h : Apart closed r) (raw raw' : List ℝ)
    (e : rawHeadings closed (r.map fun p => (p.1, p.2.1)) = .ok raw)
    (e' : rawHeadings closed ((turnLine angle d r).map fun p => (p.1, p.2.1)) = .ok raw') :
    List.Forall₂ (fun y' y => SameAngle y' (y + angle)) raw' raw := by
  have hc := chords_turn angle d r fun i a b ha hb => by
    refine h i a b ha ?_
    unfold Next
    have hi := (List.getElem?_eq_some_iff.1 hb).1
    cases closed
    · exact hb
    · rw [if_pos rfl, Nat.mod_eq_of_lt hi]; exact hb
  unfold rawHeadings at e e'
  generalize chords (r.map fun p => (p.1, p.2.1)) = C at *
  generalize chords ((turnLine angle d r).map fun p => (p.1, p.2.1)) = C' at *
  simp only [turnLine, List.map_map, List.head?_map, List.getLast?_map] at e e'
  rcases ha : r.head? with _ | a
  · rw [ha] at e; cases e
  rcases hb : r.getLast? with _ | b
  · rw [ha, hb] at e; cases e
  rw [ha, hb] at e e'
  simp only [Option.map_some, Function.comp_apply] at e e'
  cases closed
  · simp only [Bool.false_eq_true, if_false] at e e'
    rcases forall₂_last hc with ⟨h1, h2⟩ | ⟨x, y, h1, h2, h3⟩
    · rw [h2] at e; cases e
    · rw [h2] at e
      rw [h1] at e'
      obtain rfl := Res.ok.inj e
      obtain rfl := Res.ok.inj e'
      exact List.rel_append hc (.cons h3 .nil)
  · simp only [if_true] at e e'
    obtain rfl := Res.ok.inj e
    obtain rfl := Res.ok.inj e'
    refine List.rel_append hc (.cons (chord_turn angle d b a ?_) .nil)
    have hpos : 0 < r.length := List.length_pos_iff.2 (by rintro rfl; cases ha)
    refine h (r.length - 1) b a (by rw [← hb, List.getLast?_eq_getElem?]) ?_
    unfold Next
    rw [if_pos rfl, show r.length - 1 + 1 = r.length by omega, Nat.mod_self, ← ha, List.head?_eq_getElem?]

theorem unwrapFrom_turn {wrap : ℝ → ℝ} (hw : WrapsTurns wrap) (angle : ℝ) {l' l : List ℝ}
    (h : List.Forall₂ (fun y' y => SameAngle y' (y + angle)) l' l) : ∀ (prev : ℝ) (m : ℤ),
    unwrapFrom wrap (prev + (angle + 2 * Real.pi * m)) l' = (unwrapFrom wrap prev l).map (· + (angle + 2 * Real.pi * m)) := by
  induction h with
  | nil => intro prev m; rfl
  | @cons y' y l' l hy hl ih =>
    intro prev m
    obtain ⟨n, rfl⟩ := hy
    have e : wrap (y + angle + 2 * Real.pi * n - (prev + (angle + 2 * Real.pi * m))) = wrap (y - prev) := by
      rw [← hw (y - prev) (n - m)]
      congr 1
      push_cast
      ring
    simp only [unwrapFrom, List.map_cons, e]
    rw [show prev + (angle + 2 * Real.pi * m) + wrap (y - prev) = prev + wrap (y - prev) + (angle + 2 * Real.pi * m) by ring, ih]

theorem unwrap_turn {wrap : ℝ → ℝ} (hw : WrapsTurns wrap) (angle : ℝ) {l' l : List ℝ}
    (h : List.Forall₂ (fun y' y => SameAngle y' (y + angle)) l' l) : ∃ m : ℤ,
    unwrap wrap l' = (unwrap wrap l).map (· + (angle + 2 * Real.pi * m)) := by
  cases h with
  | nil => exact ⟨0, rfl⟩
  | @cons y' y l' l hy hl =>
    obtain ⟨m, rfl⟩ := hy
    refine ⟨m, ?_⟩
    simp only [unwrap, List.map_cons]
    rw [show y + angle + 2 * Real.pi * m = y + (angle + 2 * Real.pi * m) by ring, unwrapFrom_turn hw angle hl]

theorem turnPoint_turns (angle : ℝ) (m : ℤ) : turnPoint (angle + 2 * Real.pi * m) = turnPoint angle := by
  funext d p
  have h : SameAngle (angle + 2 * Real.pi * m) angle := ⟨m, rfl⟩
  simp only [turnPoint, h.cos_eq, h.sin_eq]

theorem turnLine_turns (angle : ℝ) (m : ℤ) : turnLine (angle + 2 * Real.pi * m) = turnLine angle := by
  funext d l
  simp only [turnLine, turnPoint_turns]

theorem turned_turns (angle : ℝ) (m : ℤ) (d : Vec3) (c : Centerline) :
    c.turned (angle + 2 * Real.pi * m) d = c.turned angle d := by
  simp only [Centerline.turned, turnLine_turns]

theorem guess_flat (lib : Library) (hf : FindsClosest lib.find) (hw : WrapsTurns lib.wrap) (closed : Bool) (dmax angle : ℝ) (d : Vec3)
    (hd : d.2.2 = 0) (left right : List Vec3) (h2l : 2 ≤ left.length) (h2r : 2 ≤ right.length) (c : Centerline)
    (hu : Usable closed left right c) (ha : Apart closed c.r)
    (guess : List (Point ℝ)) (dir : ℤ) (hg : startGuess lib .flat closed dmax left right c = .ok (guess, dir)) :
    ∃ m : ℤ, startGuess lib .flat closed dmax (turnLine angle d left) (turnLine angle d right) (c.turned angle d)
      = .ok (guess.map (turnTrack (angle + 2 * Real.pi * m) d), dir) := by
  obtain ⟨ang, _, _, _, hG⟩ := startGuess_ok lib .flat closed dmax left right c hu
  obtain ⟨ang', _, _, _, hG'⟩ := startGuess_ok lib .flat closed dmax _ _ _ (usable_turn angle d hu)
  have h1 := hG.raw
  have h2 := hG'.raw
  unfold angles at h1 h2
  simp only [Centerline.turned] at h1 h2
  rcases e : rawHeadings closed (c.r.map fun p => (p.1, p.2.1)) with raw | _ | _
  · rcases e' : rawHeadings closed ((turnLine angle d c.r).map fun p => (p.1, p.2.1)) with raw' | _ | _
    · have key := headings_turn angle d closed c.r ha raw raw' e e'
      obtain ⟨m, hm⟩ := unwrap_turn hw angle key
      rw [e] at h1
      rw [e'] at h2
      obtain rfl := Res.ok.inj h1
      obtain rfl := Res.ok.inj h2
      refine ⟨m, ?_⟩
      have hlen := key.length_eq
      have := guess_turn lib hf .flat closed dmax (angle + 2 * Real.pi * m) d (fun _ => hd) left right h2l h2r c hu _ _ hG.raw
        (by rw [turned_turns]; exact hG'.raw)
        (by simpa only [List.map_map, Function.comp_def, List.map_id'] using hm)
        (by simp only [List.map_map, Function.comp_def, List.map_const', hlen])
        (by simp only [List.map_map, Function.comp_def, List.map_const', hlen]) guess dir hg
      rwa [turned_turns, turnLine_turns] at this
    · rw [e'] at h2; cases h2
    · rw [e'] at h2; cases h2
  · rw [e] at h1; cases h1
  · rw [e] at h1; cases h1

theorem guess_move (lib : Library) (hf : FindsClosest lib.find) (k : Kind) (closed : Bool) (dmax : ℝ) (d : Vec3)
    (hd : k = .flat → d.2.2 = 0) (left right : List Vec3) (h2l : 2 ≤ left.length) (h2r : 2 ≤ right.length) (c : Centerline)
    (hu : Usable closed left right c)
    (guess : List (Point ℝ)) (dir : ℤ) (hg : startGuess lib k closed dmax left right c = .ok (guess, dir)) :
    startGuess lib k closed dmax (turnLine 0 d left) (turnLine 0 d right) (c.turned 0 d)
      = .ok (guess.map (turnTrack 0 d), dir) := by
  obtain ⟨ang, _, _, _, hG⟩ := startGuess_ok lib k closed dmax left right c hu
  exact guess_turn lib hf k closed dmax 0 d hd left right h2l h2r c hu ang ang hG.raw (by rw [angles_move]; exact hG.raw)
    (by simp) rfl rfl guess dir hg

end Verif.Fit
