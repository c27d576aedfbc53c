import Verif.Spec.CircuitMirror
import Verif.Lemmas.CircuitMoves
import Verif.Props.PreprocessorGeometry

/-! Lemmas on the fit of the mirror image of a circuit. -/

set_option autoImplicit false

namespace Verif.Fit

open Verif.Road (Vec3)
open Verif.Preprocessor

/-! ### Points and lines -/

theorem mirrorPoint_back (p : Vec3) : mirrorPoint (mirrorPoint p) = p := by
  obtain ⟨x, y, z⟩ := p
  simp [mirrorPoint]

theorem mirrorLine_back (l : List Vec3) : mirrorLine (mirrorLine l) = l := by
  simp [mirrorLine, Function.comp_def, mirrorPoint_back]

theorem mirrorPoint_dist (p q : Vec3) : len (mirrorPoint p - mirrorPoint q) = len (p - q) := by
  obtain ⟨x, y, z⟩ := p
  obtain ⟨x', y', z'⟩ := q
  unfold len
  congr 1
  simp only [Road.dot, mirrorPoint, Prod.mk_sub_mk]
  ring

theorem mirrorPoint_divide (a b : Vec3) (t : ℝ) :
    mirrorPoint (a + t • (b - a)) = mirrorPoint a + t • (mirrorPoint b - mirrorPoint a) := by
  obtain ⟨x, y, z⟩ := a
  obtain ⟨x', y', z'⟩ := b
  simp only [mirrorPoint, Prod.mk_sub_mk, Prod.smul_mk, Prod.mk_add_mk, smul_eq_mul, Prod.mk.injEq]
  exact ⟨trivial, by ring, trivial⟩

theorem vertices_mirror (closed : Bool) (line : List Vec3) :
    vertices closed (mirrorLine line) = mirrorLine (vertices closed line) := by
  cases closed <;> simp [vertices, mirrorLine, List.map_take]

theorem onLine_mirror {line : List Vec3} {p : Vec3} (h : OnLine line p) : OnLine (mirrorLine line) (mirrorPoint p) := by
  obtain ⟨j, t, h0, h1, a, b, ha, hb, rfl⟩ := h
  exact ⟨j, t, h0, h1, mirrorPoint a, mirrorPoint b, by rw [mirrorLine, List.getElem?_map, ha]; rfl,
    by rw [mirrorLine, List.getElem?_map, hb]; rfl, mirrorPoint_divide _ _ _⟩

theorem squared_mirror {line : List Vec3} {p : Vec3} {x : ℝ} (h : SquaredDistance line p x) :
    SquaredDistance (mirrorLine line) (mirrorPoint p) x := by
  obtain ⟨⟨q, hq, e⟩, hle⟩ := h
  refine ⟨⟨mirrorPoint q, onLine_mirror hq, by rw [mirrorPoint_dist, e]⟩, fun q' hq' => ?_⟩
  have := onLine_mirror hq'
  rw [mirrorLine_back] at this
  have := hle _ this
  rwa [← mirrorPoint_dist, mirrorPoint_back] at this

theorem measure_mirror {closed : Bool} {D : List Vec3 → Vec3 → ℝ} (hD : Measures closed D) (line : List Vec3)
    (h2 : 2 ≤ line.length) (p : Vec3) : D (mirrorLine line) (mirrorPoint p) = D line p := by
  refine squared_unique (hD (mirrorLine line) (mirrorPoint p) (by rw [mirrorLine, List.length_map]; exact h2)) ?_
  rw [vertices_mirror]
  exact squared_mirror (hD line p h2)

theorem find_mirror {find : List Vec3 → Vec3 → Bool → Nat → ℝ → Vec3 × ℝ × Nat × Nat} (hf : FindsClosest find)
    (line : List Vec3) (h2 : 2 ≤ line.length) (p : Vec3) (closed : Bool) (i j : Nat) (x : ℝ) :
    (find (mirrorLine line) (mirrorPoint p) closed i x).2.1 = (find line p closed j x).2.1 := by
  refine squared_unique (hf (mirrorLine line) (mirrorPoint p) closed i x (by rw [mirrorLine, List.length_map]; exact h2)) ?_
  rw [vertices_mirror]
  exact squared_mirror (hf line p closed j x h2)

theorem follow_mirror {find : List Vec3 → Vec3 → Bool → Nat → ℝ → Vec3 × ℝ × Nat × Nat} (hf : FindsClosest find)
    (line : List Vec3) (h2 : 2 ≤ line.length) (closed : Bool) (x : ℝ) : ∀ (l : List Vec3) (i j : Nat),
    (follow (fun p i => find (mirrorLine line) p closed i x) i (mirrorLine l)).map (fun f => Real.sqrt f.2)
      = (follow (fun p i => find line p closed i x) j l).map fun f => Real.sqrt f.2
  | [], _, _ => rfl
  | p :: l, i, j => by
    simp only [mirrorLine, List.map_cons, follow]
    congr 1
    · rw [show line.map mirrorPoint = mirrorLine line from rfl, find_mirror hf line h2 p closed i j x]
    · exact follow_mirror hf line h2 closed x l _ _

/-! ### Tracks -/

theorem position_mirror (m : ℤ) (p : Point ℝ) : position (mirrorTrack m p) = mirrorPoint (position p) := rfl

theorem edges_mirror (m : ℤ) (p : Point ℝ) : leftEdge (mirrorTrack m p) = mirrorPoint (rightEdge p) ∧
    rightEdge (mirrorTrack m p) = mirrorPoint (leftEdge p) := by
  have h : SameAngle (2 * Real.pi * m - p.yaw) (-p.yaw) := ⟨m, by ring⟩
  simp only [leftEdge, rightEdge, position, side, mirrorTrack, mirrorPoint, Prod.smul_mk, Prod.mk_sub_mk, Prod.mk_add_mk, smul_eq_mul,
    h.cos_eq, h.sin_eq, Real.cos_neg, Real.sin_neg, Prod.mk.injEq]
  exact ⟨⟨by ring, by ring, by ring⟩, by ring, by ring, by ring⟩

theorem offset_mirror (a b p : Vec3) : offset (mirrorPoint b) (mirrorPoint a) (mirrorPoint p) = offset a b p := by
  obtain ⟨x, y, z⟩ := a
  obtain ⟨x', y', z'⟩ := b
  obtain ⟨u, v, w⟩ := p
  unfold offset
  congr 1
  · simp only [mirrorPoint]
    ring
  · simp only [Road.dot, mirrorPoint, Prod.mk_sub_mk]
    ring

theorem keep_mirror {k : Kind} (m : ℤ) {p : Point ℝ} (h : keep k p = p) : keep k (mirrorTrack m p) = mirrorTrack m p := by
  cases k with
  | elevated => rfl
  | flat =>
    rw [← h]
    simp only [keep, mirrorTrack, neg_zero]

/-- The change of a state over an element, up to a tolerance. -/
def ChangesTo (k : Kind) (tol h : ℝ) (t : Quantity → ℝ) (a b : Point ℝ) : Prop :=
  ∀ Q : Quantity, Q.used k = true → Q.isState = true → |b.get Q + t Q - a.get Q - h / 2 * (rate a Q + rate b Q)| ≤ tol

theorem changes_mirror {k : Kind} {tol h : ℝ} {t t' : Quantity → ℝ} (ht : ∀ Q, Q ≠ .yaw → t Q = 0) (ht' : ∀ Q, Q ≠ .yaw → t' Q = 0)
    (hy : t' .yaw = -t .yaw) {a b : Point ℝ} (H : ChangesTo k tol h t a b) (m : ℤ) :
    ChangesTo k tol h t' (mirrorTrack m a) (mirrorTrack m b) := by
  have ha : SameAngle (2 * Real.pi * m - a.yaw) (-a.yaw) := ⟨m, by ring⟩
  have hb : SameAngle (2 * Real.pi * m - b.yaw) (-b.yaw) := ⟨m, by ring⟩
  have same : ∀ {x y : ℝ}, |x| ≤ tol → y = x → |y| ≤ tol := fun h e => e ▸ h
  have opp : ∀ {x y : ℝ}, |x| ≤ tol → y = -x → |y| ≤ tol := fun h e => by rw [e, abs_neg]; exact h
  intro Q h1 h2
  cases Q
  case x =>
    refine same (H .x h1 h2) ?_
    simp only [Point.get, rate, mirrorTrack, ha.cos_eq, hb.cos_eq, Real.cos_neg, ht .x (by decide), ht' .x (by decide)]
  case y =>
    refine opp (H .y h1 h2) ?_
    simp only [Point.get, rate, mirrorTrack, ha.sin_eq, hb.sin_eq, Real.sin_neg, ht .y (by decide), ht' .y (by decide)]
    ring
  case z =>
    refine same (H .z h1 h2) ?_
    simp only [Point.get, rate, mirrorTrack, ht .z (by decide), ht' .z (by decide)]
  case yaw =>
    refine opp (H .yaw h1 h2) ?_
    simp only [Point.get, rate, mirrorTrack, hy]
    ring
  case pitch =>
    refine same (H .pitch h1 h2) ?_
    simp only [Point.get, rate, mirrorTrack, ht .pitch (by decide), ht' .pitch (by decide)]
  case roll =>
    refine opp (H .roll h1 h2) ?_
    simp only [Point.get, rate, mirrorTrack, ht .roll (by decide), ht' .roll (by decide)]
    ring
  case yawDot =>
    refine opp (H .yawDot h1 h2) ?_
    simp only [Point.get, rate, mirrorTrack, ht .yawDot (by decide), ht' .yawDot (by decide)]
    ring
  case pitchDot =>
    refine same (H .pitchDot h1 h2) ?_
    simp only [Point.get, rate, mirrorTrack, ht .pitchDot (by decide), ht' .pitchDot (by decide)]
  case rollDot =>
    refine opp (H .rollDot h1 h2) ?_
    simp only [Point.get, rate, mirrorTrack, ht .rollDot (by decide), ht' .rollDot (by decide)]
    ring
  case nl =>
    refine same (H .nr (by cases k <;> rfl) rfl) ?_
    simp only [Point.get, rate, mirrorTrack, ht .nr (by decide), ht' .nl (by decide)]
  case nr =>
    refine same (H .nl (by cases k <;> rfl) rfl) ?_
    simp only [Point.get, rate, mirrorTrack, ht .nl (by decide), ht' .nr (by decide)]
  all_goals exact absurd h2 (by decide)

/-! ### The starting guess -/

theorem differences_mirror (t : ℝ) : ∀ l : List ℝ, differences (l.map (t - ·)) = (differences l).map Neg.neg
  | [] => rfl
  | [_] => rfl
  | a :: b :: l => by
    have ih := differences_mirror t (b :: l)
    simp only [List.map_cons, differences] at ih ⊢
    rw [ih, show t - b - (t - a) = -(b - a) by ring]

theorem zipWith_neg : ∀ l m : List ℝ, List.zipWith (· / ·) (l.map Neg.neg) m = (List.zipWith (· / ·) l m).map Neg.neg
  | [], _ => rfl
  | _ :: _, [] => rfl
  | a :: l, b :: m => by
    simp only [List.map_cons, List.zipWith_cons_cons, neg_div, zipWith_neg l m]

theorem slopes_mirror (closed : Bool) (s v : List ℝ) (turn chord t : ℝ) :
    slopes closed s (v.map (t - ·)) (-turn) chord = (slopes closed s v turn chord).map (List.map Neg.neg) := by
  unfold slopes
  rw [differences_mirror, zipWith_neg]
  simp only [List.head?_map, List.getLast?_map]
  rcases v.head? with _ | a
  · rfl
  rcases v.getLast? with _ | b
  · rfl
  simp only [Option.map_some]
  cases closed
  · simp only [Bool.false_eq_true, if_false]
    rcases (List.zipWith (· / ·) (differences v) (differences s)).getLast? with _ | x <;> simp [Res.map]
  · simp only [if_true, Res.map, List.map_append, List.map_cons, List.map_nil]
    rw [show t - a + -turn - (t - b) = -(a + turn - b) by ring, neg_div]

theorem slopes_neg (closed : Bool) (s v : List ℝ) (chord : ℝ) :
    slopes closed s (v.map Neg.neg) 0 chord = (slopes closed s v 0 chord).map (List.map Neg.neg) := by
  have := slopes_mirror closed s v 0 chord 0
  rw [neg_zero] at this
  rw [← this]
  congr 1
  exact List.map_congr_left fun x _ => by ring

theorem direction_mirror (a b t : ℝ) (h : a ≠ b) : direction (t - a) (t - b) = -direction a b := by
  unfold direction
  rcases lt_or_gt_of_ne h with h | h
  · rw [if_pos h, if_neg (by simp only [gt_iff_lt, not_lt]; linarith)]
  · rw [if_pos (show t - a < t - b by linarith), if_neg (show ¬a < b by linarith)]; rfl

theorem widths_mirror (lib : Library) (hf : FindsClosest lib.find) (k : Kind) (closed : Bool) (dmax : ℝ)
    (left right : List Vec3) (h2l : 2 ≤ left.length) (h2r : 2 ≤ right.length) (c : Centerline) :
    widths lib k closed dmax (mirrorLine right) (mirrorLine left) c.mirrored = (widths lib k closed dmax left right c).swap := by
  cases k with
  | flat =>
    simp only [widths, Centerline.mirrored, Prod.swap_prod_mk]
    rw [follow_mirror hf left h2l closed dmax c.r 0 0, follow_mirror hf right h2r closed dmax c.r 0 0]
  | elevated =>
    have hn : ∀ v : Vec3, normV (mirrorPoint (-v)) = normV v := by
      rintro ⟨x, y, z⟩
      unfold normV
      congr 1
      simp only [mirrorPoint, Prod.neg_mk]
      ring
    simp only [widths, Centerline.mirrored, Prod.swap_prod_mk, List.map_map, Function.comp_def, hn]

theorem usable_mirror {closed : Bool} {left right : List Vec3} {c : Centerline} (h : Usable closed left right c) :
    Usable closed (mirrorLine right) (mirrorLine left) c.mirrored where
  points := by simp only [Centerline.mirrored, mirrorLine, List.length_map]; exact h.points
  halves := by simp only [Centerline.mirrored, List.length_map]; exact h.halves
  first := h.first
  last := h.last
  many := h.many
  left := by simp [mirrorLine, h.right]
  right := by simp [mirrorLine, h.left]

theorem guess_mirror (lib : Library) (hf : FindsClosest lib.find) (k : Kind) (closed : Bool) (dmax : ℝ) (m : ℤ)
    (left right : List Vec3) (h2l : 2 ≤ left.length) (h2r : 2 ≤ right.length) (c : Centerline)
    (hu : Usable closed left right c) (ang ang' : List (ℝ × ℝ × ℝ)) (ha : angles lib k closed c = .ok ang)
    (ha' : angles lib k closed c.mirrored = .ok ang')
    (hy : unwrap lib.wrap (ang'.map fun a => a.1) = (unwrap lib.wrap (ang.map fun a => a.1)).map (2 * Real.pi * m - ·))
    (hp : (ang'.map fun a => a.2.1) = ang.map fun a => a.2.1)
    (hr : (ang'.map fun a => a.2.2) = (ang.map fun a => a.2.2).map Neg.neg)
    (hne : closed = true →
      (unwrap lib.wrap (ang.map fun a => a.1)).headD 0 ≠ (unwrap lib.wrap (ang.map fun a => a.1)).getLastD 0)
    (guess : List (Point ℝ)) (dir : ℤ) (hg : startGuess lib k closed dmax left right c = .ok (guess, dir)) :
    startGuess lib k closed dmax (mirrorLine right) (mirrorLine left) c.mirrored
      = .ok (guess.map (mirrorTrack m), -dir) := by
  have hs0 : c.s ≠ [] := by
    intro h
    have := hu.first
    rw [h] at this
    cases this
  have hpos := List.length_pos_iff.2 hs0
  have hr0 : c.r ≠ [] := List.ne_nil_of_length_pos (by rw [hu.points]; exact hpos)
  obtain ⟨ang₁, hang, hal⟩ := angles_ok lib k closed c hr0 (by rw [hu.points]; exact hu.many) (by rw [hu.halves, hu.points])
  rw [ha] at hang
  obtain rfl := Res.ok.inj hang
  have hyl : (unwrap lib.wrap (ang.map fun a => a.1)).length = c.r.length := by
    rw [unwrap_length, List.length_map, hal]
  have hy0 : unwrap lib.wrap (ang.map fun a => a.1) ≠ [] :=
    List.ne_nil_of_length_pos (by rw [hyl]; exact List.length_pos_iff.2 hr0)
  have hget : ∀ i < c.r.length, (mirrorLine c.r).getD i 0 = mirrorPoint (c.r.getD i 0) := by
    intro i hi
    simp [mirrorLine, List.getD_eq_getElem?_getD, hi]
  have hchord : distance ((mirrorLine c.r).getLastD 0) ((mirrorLine c.r).headD 0)
      = distance (c.r.getLastD 0) (c.r.headD 0) := by
    obtain ⟨a, ha⟩ : ∃ a, c.r.head? = some a := ⟨_, List.head?_eq_some_head hr0⟩
    obtain ⟨b, hb⟩ : ∃ a, c.r.getLast? = some a := ⟨_, List.getLast?_eq_some_getLast hr0⟩
    simp only [List.getLastD_eq_getLast?, List.headD_eq_head?_getD, mirrorLine, List.head?_map, List.getLast?_map, ha, hb,
      Option.map_some, Option.getD_some]
    exact mirrorPoint_dist a b
  have hdir : (if closed then direction (((unwrap lib.wrap (ang.map fun a => a.1)).map (2 * Real.pi * m - ·)).headD 0)
      (((unwrap lib.wrap (ang.map fun a => a.1)).map (2 * Real.pi * m - ·)).getLastD 0) else 0)
        = -(if closed then direction ((unwrap lib.wrap (ang.map fun a => a.1)).headD 0)
            ((unwrap lib.wrap (ang.map fun a => a.1)).getLastD 0) else 0) := by
    cases closed with
    | false => rfl
    | true =>
      simp only [if_true]
      have hne := hne rfl
      obtain ⟨a, ha⟩ : ∃ a, (unwrap lib.wrap (ang.map fun a => a.1)).head? = some a := ⟨_, List.head?_eq_some_head hy0⟩
      obtain ⟨b, hb⟩ : ∃ a, (unwrap lib.wrap (ang.map fun a => a.1)).getLast? = some a := ⟨_, List.getLast?_eq_some_getLast hy0⟩
      simp only [List.getLastD_eq_getLast?, List.headD_eq_head?_getD, List.head?_map, List.getLast?_map, ha, hb,
        Option.map_some, Option.getD_some] at hne ⊢
      exact direction_mirror a b _ hne
  unfold startGuess at hg ⊢
  rw [ha, Res.bind_ok] at hg
  rw [ha', Res.bind_ok, widths_mirror lib hf k closed dmax left right h2l h2r c, hy, hp, hr]
  generalize hD : (if closed then direction ((unwrap lib.wrap (ang.map fun a => a.1)).headD 0)
            ((unwrap lib.wrap (ang.map fun a => a.1)).getLastD 0) else 0) = D at hdir hg
  simp only [Centerline.mirrored, hchord, hdir, hD] at hg ⊢
  rw [show 2 * Real.pi * ((-D : ℤ) : ℝ) = -(2 * Real.pi * (D : ℝ)) by push_cast; ring]
  simp only [Res.bind_eq_ok] at hg
  obtain ⟨v1, e1, v2, e2, v3, e3, v4, e4, v5, e5, v6, e6, v7, e7, v8, e8, e⟩ := hg
  have e1' := slopes_mirror closed c.s (unwrap lib.wrap (ang.map fun a => a.1)) (2 * Real.pi * D)
    (distance (c.r.getLastD 0) (c.r.headD 0)) (2 * Real.pi * m)
  rw [e1] at e1'
  have e3' := slopes_neg closed c.s (ang.map fun a => a.2.2) (distance (c.r.getLastD 0) (c.r.headD 0))
  rw [e3] at e3'
  have e4' := slopes_neg closed c.s v1 (distance (c.r.getLastD 0) (c.r.headD 0))
  rw [e4] at e4'
  have e6' := slopes_neg closed c.s v3 (distance (c.r.getLastD 0) (c.r.headD 0))
  rw [e6] at e6'
  simp only [Res.map] at e1' e3' e4' e6'
  simp only [e1', e2, e3', e4', e5, e6', e7, e8, Prod.fst_swap, Prod.snd_swap, Res.bind_ok, Res.ok.injEq, Prod.mk.injEq] at e ⊢
  obtain ⟨rfl, rfl⟩ := e
  refine ⟨?_, rfl⟩
  rw [List.map_map (g := mirrorTrack m), show (mirrorLine c.r).length = c.r.length by simp [mirrorLine]]
  refine List.map_congr_left fun i hi => ?_
  have hi := List.mem_range.1 hi
  have hyg : ((unwrap lib.wrap (ang.map fun a => a.1)).map (2 * Real.pi * m - ·)).getD i 0
      = 2 * Real.pi * m - (unwrap lib.wrap (ang.map fun a => a.1)).getD i 0 := by
    have : i < (unwrap lib.wrap (ang.map fun a => a.1)).length := by rw [hyl]; exact hi
    simp only [List.getD_eq_getElem?_getD, List.getElem?_map, List.getElem?_eq_getElem this, Option.map_some, Option.getD_some]
  have hneg : ∀ v : List ℝ, (v.map Neg.neg).getD i 0 = -v.getD i 0 := by
    intro v
    simp only [List.getD_eq_getElem?_getD, List.getElem?_map]
    rcases v[i]? with _ | x <;> simp
  rw [hget i hi, hyg]
  simp only [hneg, Function.comp_apply, mirrorTrack, mirrorPoint]

/-! ### The headings of the mirror image of a circuit without elevation -/

theorem atan2_mirror (x y : ℝ) : SameAngle (atan2 (-y) x) (-atan2 y x) := by
  have : (⟨x, -y⟩ : ℂ) = (starRingEnd ℂ) ⟨x, y⟩ := rfl
  unfold atan2
  rw [this, Complex.arg_conj]
  split
  · rename_i h
    exact ⟨1, by rw [h]; push_cast; ring⟩
  · exact .refl _

theorem chord_mirror (a b : Vec3) :
    SameAngle (atan2 ((mirrorPoint b).2.1 - (mirrorPoint a).2.1) ((mirrorPoint b).1 - (mirrorPoint a).1))
      (-atan2 (b.2.1 - a.2.1) (b.1 - a.1)) := by
  have := atan2_mirror (b.1 - a.1) (b.2.1 - a.2.1)
  rwa [show -(b.2.1 - a.2.1) = (mirrorPoint b).2.1 - (mirrorPoint a).2.1 by simp only [mirrorPoint]; ring] at this

theorem chords_mirror : ∀ l : List Vec3,
    List.Forall₂ (fun y' y => SameAngle y' (-y)) (chords ((mirrorLine l).map fun p => (p.1, p.2.1)))
      (chords (l.map fun p => (p.1, p.2.1)))
  | [] => .nil
  | [_] => .nil
  | a :: b :: l => by
    have ih := chords_mirror (b :: l)
    simp only [mirrorLine, List.map_cons, chords] at ih ⊢
    exact .cons (chord_mirror a b) ih

theorem headings_mirror (closed : Bool) (r : List Vec3) (raw raw' : List ℝ)
    (e : rawHeadings closed (r.map fun p => (p.1, p.2.1)) = .ok raw)
    (e' : rawHeadings closed ((mirrorLine r).map fun p => (p.1, p.2.1)) = .ok raw') :
    List.Forall₂ (fun y' y => SameAngle y' (-y)) raw' raw := by
  have hc := chords_mirror r
  unfold rawHeadings at e e'
  generalize chords (r.map fun p => (p.1, p.2.1)) = C at *
  generalize chords ((mirrorLine r).map fun p => (p.1, p.2.1)) = C' at *
  simp only [mirrorLine, List.map_map, List.head?_map, List.getLast?_map] at e e'
  rcases ha : r.head? with _ | a
  · rw [ha] at e; cases e
  rcases hb : r.getLast? with _ | b
  · rw [ha, hb] at e; cases e
  rw [ha, hb] at e e'
  simp only [Option.map_some, Function.comp_apply] at e e'
  cases closed
  · simp only [Bool.false_eq_true, if_false] at e e'
    rcases forall₂_last hc with ⟨h1, h2⟩ | ⟨x, y, h1, h2, h3⟩
    · rw [h2] at e; cases e
    · rw [h2] at e
      rw [h1] at e'
      obtain rfl := Res.ok.inj e
      obtain rfl := Res.ok.inj e'
      exact List.rel_append hc (.cons h3 .nil)
  · simp only [if_true] at e e'
    obtain rfl := Res.ok.inj e
    obtain rfl := Res.ok.inj e'
    exact List.rel_append hc (.cons (chord_mirror b a) .nil)

theorem wrap_mirror {wrap : ℝ → ℝ} (hw : WrapsToPi wrap) {a b : ℝ} (h : SameAngle b (-a)) (hn : ¬SameAngle a Real.pi) :
    wrap b = -wrap a := by
  obtain ⟨i, hi⟩ := hw.same a
  obtain ⟨j, hj⟩ := hw.same b
  obtain ⟨k, hk⟩ := h
  have ha := abs_le.1 (hw.within a)
  have hb := abs_le.1 (hw.within b)
  have h1 : wrap a ≠ Real.pi := fun e => hn ⟨-i, by push_cast; linarith⟩
  have h2 : wrap a ≠ -Real.pi := fun e => hn ⟨-i - 1, by push_cast; linarith⟩
  have l1 := lt_of_le_of_ne ha.2 h1
  have l2 := lt_of_le_of_ne ha.1 (Ne.symm h2)
  have hs : wrap b + wrap a = 2 * Real.pi * ((i + j + k : ℤ) : ℝ) := by push_cast; linarith
  have hp := Real.pi_pos
  have hz : i + j + k = 0 := by
    have u : ((i + j + k : ℤ) : ℝ) < 1 := by nlinarith
    have v : (-1 : ℝ) < ((i + j + k : ℤ) : ℝ) := by nlinarith
    have u' : i + j + k < 1 := by exact_mod_cast u
    have v' : -1 < i + j + k := by exact_mod_cast v
    omega
  rw [hz, Int.cast_zero, mul_zero] at hs
  linarith

theorem unwrapFrom_mirror {wrap : ℝ → ℝ} (hw : WrapsToPi wrap) {l' l : List ℝ}
    (h : List.Forall₂ (fun y' y => SameAngle y' (-y)) l' l) : ∀ (prev : ℝ) (m : ℤ),
    List.IsChain (fun a b => ¬SameAngle b (a + Real.pi)) (prev :: unwrapFrom wrap prev l) →
    unwrapFrom wrap (2 * Real.pi * m - prev) l' = (unwrapFrom wrap prev l).map (2 * Real.pi * m - ·) := by
  induction h with
  | nil => intro prev m _; rfl
  | @cons y' y l' l hy hl ih =>
    intro prev m hc
    simp only [unwrapFrom, List.isChain_cons_cons] at hc
    have e : wrap (y' - (2 * Real.pi * m - prev)) = -wrap (y - prev) := by
      refine wrap_mirror hw ?_ ?_
      · obtain ⟨n, rfl⟩ := hy
        exact ⟨n - m, by push_cast; ring⟩
      · rintro ⟨n, hn⟩
        obtain ⟨j, hj⟩ := hw.same (y - prev)
        exact hc.1 ⟨n + j, by push_cast; linarith⟩
    simp only [unwrapFrom, List.map_cons, e]
    rw [show 2 * Real.pi * m - prev + -wrap (y - prev) = 2 * Real.pi * m - (prev + wrap (y - prev)) by ring, ih _ _ hc.2]

theorem unwrap_mirror {wrap : ℝ → ℝ} (hw : WrapsToPi wrap) {l' l : List ℝ}
    (h : List.Forall₂ (fun y' y => SameAngle y' (-y)) l' l)
    (hc : List.IsChain (fun a b => ¬SameAngle b (a + Real.pi)) (unwrap wrap l)) : ∃ m : ℤ,
    unwrap wrap l' = (unwrap wrap l).map (2 * Real.pi * m - ·) := by
  cases h with
  | nil => exact ⟨0, rfl⟩
  | @cons y' y l' l hy hl =>
    obtain ⟨m, rfl⟩ := hy
    refine ⟨m, ?_⟩
    simp only [unwrap, List.map_cons] at hc ⊢
    rw [show -y + 2 * Real.pi * m = 2 * Real.pi * m - y by ring, unwrapFrom_mirror hw hl y m hc]

/-- The last heading of an open line is that of the chord before. -/
theorem rawHeadings_last {r : List (ℝ × ℝ)} {raw : List ℝ} (e : rawHeadings false r = .ok raw) : ∃ l y, raw = l ++ [y] ++ [y] := by
  unfold rawHeadings at e
  rcases ha : r.head? with _ | a
  · rw [ha] at e; cases e
  rcases hb : r.getLast? with _ | b
  · rw [ha, hb] at e; cases e
  rw [ha, hb] at e
  simp only [Bool.false_eq_true, if_false] at e
  rcases h : (chords r).getLast? with _ | y
  · rw [h] at e; cases e
  · rw [h] at e
    obtain rfl := Res.ok.inj e
    obtain ⟨l, hl⟩ := List.getLast?_eq_some_iff.1 h
    exact ⟨l, y, by rw [hl]⟩

theorem not_reversed {a b c : Vec3} {y z : ℝ} (hab : (a.1, a.2.1) ≠ (b.1, b.2.1)) (hbc : (b.1, b.2.1) ≠ (c.1, c.2.1))
    (h1 : b.1 = a.1 + Real.sqrt ((b.1 - a.1) ^ 2 + (b.2.1 - a.2.1) ^ 2) * Real.cos y)
    (h2 : b.2.1 = a.2.1 + Real.sqrt ((b.1 - a.1) ^ 2 + (b.2.1 - a.2.1) ^ 2) * Real.sin y)
    (h3 : c.1 = b.1 + Real.sqrt ((c.1 - b.1) ^ 2 + (c.2.1 - b.2.1) ^ 2) * Real.cos z)
    (h4 : c.2.1 = b.2.1 + Real.sqrt ((c.1 - b.1) ^ 2 + (c.2.1 - b.2.1) ^ 2) * Real.sin z)
    (h : ¬Reverses a b c) : ¬SameAngle z (y + Real.pi) := by
  intro hs
  apply h
  have pos : ∀ {p q : Vec3}, (p.1, p.2.1) ≠ (q.1, q.2.1) → 0 < Real.sqrt ((q.1 - p.1) ^ 2 + (q.2.1 - p.2.1) ^ 2) := by
    intro p q hpq
    refine Real.sqrt_pos.2 ?_
    by_contra hn
    have e1 : q.1 - p.1 = 0 := by nlinarith [sq_nonneg (q.1 - p.1), sq_nonneg (q.2.1 - p.2.1)]
    have e2 : q.2.1 - p.2.1 = 0 := by nlinarith [sq_nonneg (q.1 - p.1), sq_nonneg (q.2.1 - p.2.1)]
    exact hpq (Prod.ext (by simp only; linarith) (by simp only; linarith))
  have p1 := pos hab
  have p2 := pos hbc
  generalize Real.sqrt ((b.1 - a.1) ^ 2 + (b.2.1 - a.2.1) ^ 2) = L at *
  generalize Real.sqrt ((c.1 - b.1) ^ 2 + (c.2.1 - b.2.1) ^ 2) = M at *
  have ec : Real.cos z = -Real.cos y := by rw [hs.cos_eq, Real.cos_add_pi]
  have es : Real.sin z = -Real.sin y := by rw [hs.sin_eq, Real.sin_add_pi]
  rw [ec] at h3
  rw [es] at h4
  have d1 : b.1 - a.1 = L * Real.cos y := by linarith
  have d2 : b.2.1 - a.2.1 = L * Real.sin y := by linarith
  have d3 : c.1 - b.1 = M * -Real.cos y := by linarith
  have d4 : c.2.1 - b.2.1 = M * -Real.sin y := by linarith
  unfold Reverses
  rw [d1, d2, d3, d4]
  refine ⟨by ring, ?_⟩
  have : L * Real.cos y * (M * -Real.cos y) + L * Real.sin y * (M * -Real.sin y) = -(L * M) := by
    linear_combination -(L * M) * Real.sin_sq_add_cos_sq y
  rw [this]
  have := mul_pos p1 p2
  linarith

theorem next_flat {closed : Bool} {r : List Vec3} {i : Nat} {b : Vec3} (h : Next closed r i b) :
    if closed then (r.map fun p => (p.1, p.2.1))[(i + 1) % (r.map fun p => (p.1, p.2.1)).length]? = some (b.1, b.2.1)
      else (r.map fun p => (p.1, p.2.1))[i + 1]? = some (b.1, b.2.1) := by
  unfold Next at h
  cases closed
  · simp only [Bool.false_eq_true, if_false, List.getElem?_map] at h ⊢
    rw [h]; rfl
  · simp only [if_true, List.getElem?_map, List.length_map] at h ⊢
    rw [h]; rfl

theorem headings_chain {wrap : ℝ → ℝ} (hw : WrapsToPi wrap) (closed : Bool) (r : List Vec3) (ha : Apart closed r)
    (hn : NoReversal closed r) (raw : List ℝ) (e : rawHeadings closed (r.map fun p => (p.1, p.2.1)) = .ok raw)
    (hl : raw.length = r.length) :
    List.IsChain (fun a b => ¬SameAngle b (a + Real.pi)) (unwrap wrap raw) := by
  have hul : (unwrap wrap raw).length = r.length := by rw [unwrap_length, hl]
  rw [List.isChain_iff_getElem]
  intro i hi
  rw [hul] at hi
  have ga : r[i]? = some r[i] := List.getElem?_eq_getElem (by omega)
  have gb : r[i + 1]? = some r[i + 1] := List.getElem?_eq_getElem hi
  have nb : Next closed r i r[i + 1] := by
    unfold Next
    cases closed
    · exact gb
    · rw [if_pos rfl, Nat.mod_eq_of_lt hi]; exact gb
  have u1 : (unwrap wrap raw)[i]? = some (unwrap wrap raw)[i] := List.getElem?_eq_getElem (by omega)
  have u2 : (unwrap wrap raw)[i + 1]? = some (unwrap wrap raw)[i + 1] := List.getElem?_eq_getElem (by omega)
  have step : ∀ c, Next closed r (i + 1) c → ¬SameAngle (unwrap wrap raw)[i + 1] ((unwrap wrap raw)[i] + Real.pi) := by
    intro c nc
    obtain ⟨-, h1, h2⟩ := C60_towards_next hw closed _ raw e i (r[i].1, r[i].2.1) (r[i + 1].1, r[i + 1].2.1) _
      (by rw [List.getElem?_map, ga]; rfl) (next_flat nb) u1
    obtain ⟨-, h3, h4⟩ := C60_towards_next hw closed _ raw e (i + 1) (r[i + 1].1, r[i + 1].2.1) (c.1, c.2.1) _
      (by rw [List.getElem?_map, gb]; rfl) (next_flat nc) u2
    exact not_reversed (ha i _ _ ga nb) (ha (i + 1) _ _ gb nc) h1 h2 h3 h4 (hn i _ _ _ ga nb nc)
  by_cases h2 : i + 2 < r.length
  · refine step r[i + 2] ?_
    unfold Next
    cases closed
    · exact List.getElem?_eq_getElem h2
    · rw [if_pos rfl, Nat.mod_eq_of_lt h2]; exact List.getElem?_eq_getElem h2
  · have h2 : i + 2 = r.length := by omega
    cases closed with
    | true =>
      refine step r[0] ?_
      unfold Next
      rw [if_pos rfl, show i + 1 + 1 = r.length from h2, Nat.mod_self]
      exact List.getElem?_eq_getElem (by omega)
    | false =>
      obtain ⟨l, y, rfl⟩ := rawHeadings_last e
      simp only [List.length_append, List.length_cons, List.length_nil] at hl
      have il : i = l.length := by omega
      obtain ⟨-, hs, -⟩ := C60_continuous hw (l ++ [y] ++ [y])
      have s1 := hs i _ y u1 (by rw [il]; simp)
      have s2 := hs (i + 1) _ y u2 (by rw [il]; simp)
      intro hne
      obtain ⟨j, hj⟩ := hne
      obtain ⟨k, hk⟩ := s1
      obtain ⟨n, hn⟩ := s2
      have hp := Real.pi_pos
      have : Real.pi * ((1 + 2 * (j + k - n) : ℤ) : ℝ) = 0 := by push_cast; linarith
      rcases mul_eq_zero.1 this with h | h
      · exact hp.ne' h
      · have h' : 1 + 2 * (j + k - n) = 0 := by exact_mod_cast h
        omega

theorem guess_flat_mirror (lib : Library) (hf : FindsClosest lib.find) (hw : WrapsToPi lib.wrap) (closed : Bool) (dmax : ℝ)
    (left right : List Vec3) (h2l : 2 ≤ left.length) (h2r : 2 ≤ right.length) (c : Centerline)
    (hu : Usable closed left right c) (ha : Apart closed c.r) (hn : NoReversal closed c.r)
    (guess : List (Point ℝ)) (dir : ℤ) (hg : startGuess lib .flat closed dmax left right c = .ok (guess, dir))
    (hne : closed = true → ∀ a b, guess.head? = some a → guess.getLast? = some b → a.yaw ≠ b.yaw) :
    ∃ m : ℤ, startGuess lib .flat closed dmax (mirrorLine right) (mirrorLine left) c.mirrored
      = .ok (guess.map (mirrorTrack m), -dir) := by
  obtain ⟨ang, pts₀, dir₀, hg₀, hG⟩ := startGuess_ok lib .flat closed dmax left right c hu
  obtain ⟨ang', _, _, _, hG'⟩ := startGuess_ok lib .flat closed dmax _ _ _ (usable_mirror hu)
  rw [hg] at hg₀
  obtain ⟨rfl, rfl⟩ := Prod.mk.inj (Res.ok.inj hg₀)
  have hs0 : c.s ≠ [] := by
    intro h
    have := hu.first
    rw [h] at this
    cases this
  have hpos := List.length_pos_iff.2 hs0
  rw [← hu.points] at hpos
  have hr0 : c.r ≠ [] := List.ne_nil_of_length_pos hpos
  obtain ⟨ang₁, hang, hal⟩ := angles_ok lib .flat closed c hr0 (by rw [hu.points]; exact hu.many) (by rw [hu.halves, hu.points])
  rw [hG.raw] at hang
  obtain rfl := Res.ok.inj hang
  have h1 := hG.raw
  have h2 := hG'.raw
  unfold angles at h1 h2
  simp only [Centerline.mirrored] at h1 h2
  rcases e : rawHeadings closed (c.r.map fun p => (p.1, p.2.1)) with raw | _ | _
  · rcases e' : rawHeadings closed ((mirrorLine c.r).map fun p => (p.1, p.2.1)) with raw' | _ | _
    · have key := headings_mirror closed c.r raw raw' e e'
      rw [e] at h1
      rw [e'] at h2
      obtain rfl := Res.ok.inj h1
      obtain rfl := Res.ok.inj h2
      rw [List.length_map] at hal
      obtain ⟨m, hm⟩ := unwrap_mirror hw key (headings_chain hw closed c.r ha hn raw e hal)
      refine ⟨m, ?_⟩
      have hlen := key.length_eq
      have hul : (unwrap lib.wrap raw).length = c.r.length := by rw [unwrap_length, hal]
      refine guess_mirror lib hf .flat closed dmax m left right h2l h2r c hu _ _ hG.raw hG'.raw
        (by simpa only [List.map_map, Function.comp_def, List.map_id'] using hm)
        (by simp only [List.map_map, Function.comp_def, List.map_const', hlen])
        (by simp [Function.comp_def, hlen]) ?_ guess dir hg
      intro hc
      obtain ⟨p, hp, -, -, -, py, -⟩ := hG.at_ 0 hpos
      obtain ⟨q, hq, -, -, -, qy, -⟩ := hG.at_ (c.r.length - 1) (by omega)
      have := hne hc p q (by rw [List.head?_eq_getElem?, hp]) (by rw [List.getLast?_eq_getElem?, hG.length, hq])
      rw [py, qy] at this
      simp only [List.map_map, Function.comp_def, List.map_id'] at this ⊢
      rw [List.headD_eq_head?_getD, List.getLastD_eq_getLast?, List.head?_eq_getElem?, List.getLast?_eq_getElem?, hul]
      simpa only [List.getD_eq_getElem?_getD] using this
    · rw [e'] at h2; cases h2
    · rw [e'] at h2; cases h2
  · rw [e] at h1; cases h1
  · rw [e] at h1; cases h1

end Verif.Fit
