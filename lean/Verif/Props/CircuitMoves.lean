import Verif.Lemmas.CircuitMoves

/-! Properties of the fit of circuits whose measured boundaries are moved or turned (C266, C267). -/

set_option autoImplicit false

namespace Verif.Fit

open Verif.Road (Vec3)
open Verif.Path (turnPoint)
open Verif.Preprocessor

/-! ## C266 -/

/-- C266: a track of the measured boundaries, turned and moved, is a track of the turned and moved boundaries: it obeys the equations
of a track and begins (and ends) on the turned and moved start (and finish) line. -/
theorem C266_tracks (angle : ℝ) (d : Vec3) (k : Kind) (closed : Bool) (dir : ℤ) (left right : List Vec3) (s : List ℝ) (length : ℝ)
    (pts : List (Point ℝ)) (h : Obeys k closed dir left right 0 s length pts) :
    Obeys k closed dir (turnLine angle d left) (turnLine angle d right) 0 s length (pts.map (turnTrack angle d)) where
  inner := by
    intro Q i a b s₀ s₁ h1 h2 ha hb hs hs'
    rw [List.getElem?_map, Option.map_eq_some_iff] at ha hb
    obtain ⟨a, ha, rfl⟩ := ha
    obtain ⟨b, hb, rfl⟩ := hb
    have H : Changes k (s₁ - s₀) (fun _ => 0) a b := fun Q h1 h2 => by
      simpa only [add_zero] using h.inner Q i a b s₀ s₁ h1 h2 ha hb hs hs'
    simpa only [add_zero] using changes_turn rfl rfl H angle d Q h1 h2
  closing := by
    intro hc Q a b s₁ h1 h2 ha hb hs
    rw [List.head?_map, Option.map_eq_some_iff] at ha
    rw [List.getLast?_map, Option.map_eq_some_iff] at hb
    obtain ⟨a, ha, rfl⟩ := ha
    obtain ⟨b, hb, rfl⟩ := hb
    have H : Changes k (length - s₁) (turn dir) b a := fun Q h1 h2 => h.closing hc Q a b s₁ h1 h2 ha hb hs
    exact changes_turn rfl rfl H angle d Q h1 h2
  start := by
    intro a l r ha hl hr
    rw [List.head?_map, Option.map_eq_some_iff] at ha
    rw [turnLine, List.head?_map, Option.map_eq_some_iff] at hl hr
    obtain ⟨a, ha, rfl⟩ := ha
    obtain ⟨l, hl, rfl⟩ := hl
    obtain ⟨r, hr, rfl⟩ := hr
    rw [position_turn, offset_turn]
    exact h.start a l r ha hl hr
  finish := by
    intro hc a l r ha hl hr
    rw [List.getLast?_map, Option.map_eq_some_iff] at ha
    rw [turnLine, List.getLast?_map, Option.map_eq_some_iff] at hl hr
    obtain ⟨a, ha, rfl⟩ := ha
    obtain ⟨l, hl, rfl⟩ := hl
    obtain ⟨r, hr, rfl⟩ := hr
    rw [position_turn, offset_turn]
    exact h.finish hc a l r ha hl hr

/-- C266: the turned and moved track fits the turned and moved boundaries as well as the track fits the boundaries. -/
theorem C266_misfit (angle : ℝ) (d : Vec3) (closed' : Bool) (D : List Vec3 → Vec3 → ℝ) (hD : Measures closed' D) (k : Kind)
    (closed : Bool) (w : Weights) (left right centreline : List Vec3) (h2l : 2 ≤ left.length) (h2r : 2 ≤ right.length)
    (h2c : 2 ≤ centreline.length) (s : List ℝ) (length : ℝ) (pts : List (Point ℝ)) :
    misfit D k closed w (turnLine angle d left) (turnLine angle d right) (turnLine angle d centreline) s length
      (pts.map (turnTrack angle d)) = misfit D k closed w left right centreline s length pts := by
  unfold misfit
  rw [List.map_map]
  congr 2
  refine List.map_congr_left fun p _ => ?_
  simp only [Function.comp_apply]
  rw [(edges_turn angle d p).1, (edges_turn angle d p).2, position_turn, measure_turn hD angle d left h2l,
    measure_turn hD angle d right h2r, measure_turn hD angle d centreline h2c]
  rfl

/-- One half of the equality of the least misfits: if the guess is turned and moved as well, and the turned and moved track is in the
range of 100 m around the turned and moved estimate. -/
theorem fit_le (angle : ℝ) (d : Vec3) (lib : Library) (hfind : FindsClosest lib.find) (D : List Vec3 → Vec3 → ℝ)
    (hD : Measures true D) (opt : Optimiser) (hopt : RightSize opt) (hrel : Reliable 0 0 opt) (hmin : Minimises opt)
    (st : Settings) (k : Kind) (hd : k = .flat → d.2.2 = 0) (closed : Bool) (hkc : k = .flat ∨ closed = false) (left right : List Vec3)
    (h2l : 2 ≤ left.length) (h2r : 2 ≤ right.length) (c : Centerline) (h2c : 2 ≤ c.r.length) (hu : Usable closed left right c)
    (hguess : ∀ guess dir, startGuess lib k closed st.dmax left right c = .ok (guess, dir) → ∃ m : ℤ,
      startGuess lib k closed st.dmax (turnLine angle d left) (turnLine angle d right) (c.turned angle d)
        = .ok (guess.map (turnTrack (angle + 2 * Real.pi * m) d), dir))
    (res res' : Fitted) (hres : compute lib opt st k closed left right c = .ok res)
    (hres' : compute lib opt st k closed (turnLine angle d left) (turnLine angle d right) (c.turned angle d) = .ok res')
    (hbox : ∀ (i : Nat) (a : Vec3) (p : Point ℝ), c.r[i]? = some a → res.points[i]? = some p →
      |(turnPoint angle d (position p)).1 - (turnPoint angle d a).1| ≤ 100 ∧
      |(turnPoint angle d (position p)).2.1 - (turnPoint angle d a).2.1| ≤ 100) :
    misfit D k closed st.weights (turnLine angle d left) (turnLine angle d right) (turnLine angle d c.r) res'.s res'.length res'.points
      ≤ misfit D k closed st.weights left right c.r res.s res.length res.points := by
  obtain ⟨guess, f, hg, hn, hgn, hf, hf', hs, hl, hob, hnear, -⟩ := C203_track lib opt hopt 0 0 hrel st k closed left right c hu res hres
  obtain ⟨ang, guess₁, su, f₁, hg₁, hG, -, -, -, -, hkeep, -⟩ := compute_result lib opt hopt st k closed left right c hu res hres
  rw [hg] at hg₁
  obtain ⟨rfl, -⟩ := Prod.mk.inj (Res.ok.inj hg₁)
  obtain ⟨m, hg'⟩ := hguess guess res.direction hg
  have hT : turnPoint (angle + 2 * Real.pi * m) = turnPoint angle := turnPoint_turns angle m
  have hL : turnLine (angle + 2 * Real.pi * m) = turnLine angle := turnLine_turns angle m
  have hob' := C266_tracks (angle + 2 * Real.pi * m) d k closed res.direction left right res.s res.length res.points hob
  have hmis := C266_misfit (angle + 2 * Real.pi * m) d true D hD k closed st.weights left right c.r h2l h2r h2c res.s res.length
    res.points
  rw [hL] at hob' hmis
  rw [← hmis]
  have key := C204_optimal_partial lib hfind D hD opt hopt hmin st k closed hkc (turnLine angle d left) (turnLine angle d right)
    (by rw [turnLine, List.length_map]; exact h2l) (by rw [turnLine, List.length_map]; exact h2r) (c.turned angle d)
    (by simp only [Centerline.turned, turnLine, List.length_map]; exact h2c) (usable_turn angle d hu) res' hres' _ _ hg' f
    (res.points.map (turnTrack (angle + 2 * Real.pi * m) d)) (by linarith) (by linarith)
    (by rw [List.length_map]; exact hn)
    (fun p hp => by
      obtain ⟨p, hp', rfl⟩ := List.mem_map.1 hp
      exact keep_turn hd (hkeep p hp'))
    (by
      have : (c.turned angle d).s.map (f * ·) = res.s := hs.symm
      have hl' : f * (c.turned angle d).length = res.length := hl.symm
      rw [this, hl']
      exact hob')
    (by
      intro Q i p g hQ hp hg
      rw [List.getElem?_map, Option.map_eq_some_iff] at hp hg
      obtain ⟨p, hp, rfl⟩ := hp
      obtain ⟨g, hg, rfl⟩ := hg
      have hN := hnear Q i p g hQ hp hg
      have hi : i < c.r.length := by rw [hu.points, ← hn]; exact (List.getElem?_eq_some_iff.1 hp).1
      obtain ⟨g', hg', hx, hy, hz, -⟩ := hG.at_ i hi
      rw [hg] at hg'
      obtain rfl := Option.some.inj hg'
      obtain ⟨bx, bz⟩ := hbox i (c.r.getD i 0) p (by simp [List.getD_eq_getElem?_getD, hi]) hp
      have ex : (turnPoint angle d (position g)).1 = (turnPoint angle d (c.r.getD i 0)).1 := by
        simp only [turnPoint, position, hx, hy]
      have ey : (turnPoint angle d (position g)).2.1 = (turnPoint angle d (c.r.getD i 0)).2.1 := by
        simp only [turnPoint, position, hx, hy]
      rw [← ex, abs_le] at bx
      rw [← ey, abs_le] at bz
      cases Q
      case x => simp only [allowed, Point.get, turnTrack, hT]; constructor <;> linarith
      case y => simp only [allowed, Point.get, turnTrack, hT]; constructor <;> linarith
      case z =>
        simp only [allowed, Point.get, turnTrack, turnPoint, position] at hN ⊢
        constructor <;> linarith
      case yaw =>
        simp only [allowed, Point.get, turnTrack] at hN ⊢
        constructor <;> linarith
      all_goals exact hN)
  rw [show (c.turned angle d).r = turnLine angle d c.r from rfl, show (c.turned angle d).s = c.s from rfl,
    show (c.turned angle d).length = c.length from rfl, ← hs, ← hl] at key
  exact key

/-- C266: when boundaries and estimate are moved (in height too with elevation), the fit has the same misfit and the same
direction of travel. -/
theorem C266_moved (d : Vec3) (lib : Library) (hfind : FindsClosest lib.find) (D : List Vec3 → Vec3 → ℝ)
    (hD : Measures true D) (opt : Optimiser) (hopt : RightSize opt) (hrel : Reliable 0 0 opt) (hmin : Minimises opt)
    (st : Settings) (k : Kind) (hd : k = .flat → d.2.2 = 0) (closed : Bool) (hkc : k = .flat ∨ closed = false) (left right : List Vec3)
    (h2l : 2 ≤ left.length) (h2r : 2 ≤ right.length) (c : Centerline) (h2c : 2 ≤ c.r.length) (hu : Usable closed left right c)
    (res res' : Fitted) (hres : compute lib opt st k closed left right c = .ok res)
    (hres' : compute lib opt st k closed (turnLine 0 d left) (turnLine 0 d right) (c.turned 0 d) = .ok res') :
    misfit D k closed st.weights (turnLine 0 d left) (turnLine 0 d right) (turnLine 0 d c.r) res'.s res'.length res'.points
      = misfit D k closed st.weights left right c.r res.s res.length res.points ∧
    res'.direction = res.direction := by
  have box : ∀ (left right : List Vec3) (c : Centerline), Usable closed left right c → ∀ res,
      compute lib opt st k closed left right c = .ok res → ∀ (d : Vec3) (i : Nat) (a : Vec3) (p : Point ℝ), c.r[i]? = some a →
      res.points[i]? = some p → |(turnPoint 0 d (position p)).1 - (turnPoint 0 d a).1| ≤ 100 ∧
        |(turnPoint 0 d (position p)).2.1 - (turnPoint 0 d a).2.1| ≤ 100 := by
    intro left right c hu res hres d i a p ha hp
    obtain ⟨guess, f, hg, hn, hgn, -, -, -, -, -, hnear, -⟩ := C203_track lib opt hopt 0 0 hrel st k closed left right c hu res hres
    obtain ⟨ang, guess₁, su, f₁, hg₁, hG, -⟩ := compute_result lib opt hopt st k closed left right c hu res hres
    rw [hg] at hg₁
    obtain ⟨rfl, -⟩ := Prod.mk.inj (Res.ok.inj hg₁)
    have hi := (List.getElem?_eq_some_iff.1 ha).1
    obtain ⟨g, hgi, hx, hy, -⟩ := hG.at_ i hi
    rw [show c.r.getD i 0 = a by rw [List.getD_eq_getElem?_getD, ha]; rfl] at hx hy
    have n1 := hnear .x i p g (by cases k <;> rfl) hp hgi
    have n2 := hnear .y i p g (by cases k <;> rfl) hp hgi
    simp only [allowed, Point.get] at n1 n2
    simp only [turn_zero, Prod.fst_add, Prod.snd_add, add_sub_add_right_eq_sub, position, abs_le]
    refine ⟨⟨?_, ?_⟩, ?_, ?_⟩ <;> linarith
  have guess : ∀ (d : Vec3), (k = .flat → d.2.2 = 0) → ∀ (left right : List Vec3), 2 ≤ left.length → 2 ≤ right.length →
      ∀ c : Centerline, Usable closed left right c → ∀ guess dir, startGuess lib k closed st.dmax left right c = .ok (guess, dir) →
      ∃ m : ℤ, startGuess lib k closed st.dmax (turnLine 0 d left) (turnLine 0 d right) (c.turned 0 d)
        = .ok (guess.map (turnTrack (0 + 2 * Real.pi * m) d), dir) := by
    intro d hd left right h1 h2 c hu g dir hg
    refine ⟨0, ?_⟩
    rw [Int.cast_zero, mul_zero, add_zero]
    exact guess_move lib hfind k closed st.dmax d hd left right h1 h2 c hu g dir hg
  have h2l' : 2 ≤ (turnLine 0 d left).length := by rw [turnLine, List.length_map]; exact h2l
  have h2r' : 2 ≤ (turnLine 0 d right).length := by rw [turnLine, List.length_map]; exact h2r
  have h2c' : 2 ≤ (c.turned 0 d).r.length := by simp only [Centerline.turned, turnLine, List.length_map]; exact h2c
  have hu' := usable_turn 0 d hu
  obtain ⟨d', hd', b1, b2, -⟩ := turnTrack_back 0 d
  rw [neg_zero] at b1 b2
  have bl : ∀ l, turnLine 0 d' (turnLine 0 d l) = l := fun l => by
    have := turnLine_back (angle := 0) (d := d) (d' := d') (by rw [neg_zero]; exact b1) l
    rwa [neg_zero] at this
  have bc : (c.turned 0 d).turned 0 d' = c := by
    obtain ⟨s, r, t, L⟩ := c
    simp only [Centerline.turned, bl, turnLine_zero]
  refine ⟨le_antisymm ?_ ?_, ?_⟩
  · exact fit_le 0 d lib hfind D hD opt hopt hrel hmin st k hd closed hkc left right h2l h2r c h2c hu
      (guess d hd left right h2l h2r c hu) res res' hres hres' (box left right c hu res hres d)
  · have := fit_le 0 d' lib hfind D hD opt hopt hrel hmin st k (fun e => hd' (hd e)) closed hkc (turnLine 0 d left) (turnLine 0 d right)
      h2l' h2r' (c.turned 0 d) h2c' hu' (guess d' (fun e => hd' (hd e)) _ _ h2l' h2r' _ hu') res' res hres'
      (by rw [bl, bl, bc]; exact hres) (box _ _ _ hu' res' hres' d')
    rw [bl, bl, show turnLine 0 d' (c.turned 0 d).r = c.r from bl c.r] at this
    exact this
  · obtain ⟨ang, g, su, f, hg, -⟩ := compute_result lib opt hopt st k closed left right c hu res hres
    obtain ⟨ang', g', su', f', hg', -⟩ := compute_result lib opt hopt st k closed _ _ _ hu' res' hres'
    obtain ⟨m, e⟩ := guess d hd left right h2l h2r c hu g _ hg
    rw [hg'] at e
    exact (Prod.mk.inj (Res.ok.inj e)).2

/-! ## C267 -/

/-- C267: without elevation, the starting guess for the turned and moved boundaries and estimate is the turned and moved starting
guess, up to whole turns of the heading. -/
theorem C267_guess (angle : ℝ) (d : Vec3) (hd : d.2.2 = 0) (lib : Library) (hfind : FindsClosest lib.find) (hw : WrapsTurns lib.wrap)
    (closed : Bool) (dmax : ℝ) (left right : List Vec3) (h2l : 2 ≤ left.length) (h2r : 2 ≤ right.length) (c : Centerline)
    (hu : Usable closed left right c) (ha : Apart closed c.r) (guess : List (Point ℝ)) (dir : ℤ)
    (hg : startGuess lib .flat closed dmax left right c = .ok (guess, dir)) : ∃ angle', SameAngle angle' angle ∧
    startGuess lib .flat closed dmax (turnLine angle d left) (turnLine angle d right) (c.turned angle d)
      = .ok (guess.map (turnTrack angle' d), dir) := by
  obtain ⟨m, h⟩ := guess_flat lib hfind hw closed dmax angle d hd left right h2l h2r c hu ha guess dir hg
  exact ⟨_, ⟨m, rfl⟩, h⟩

theorem turned_close {angle : ℝ} {d : Vec3} {r : List Vec3} {pts : List (Point ℝ)} (h : Close r pts) (i : Nat) (a : Vec3) (p : Point ℝ)
    (ha : r[i]? = some a) (hp : pts[i]? = some p) :
    |(turnPoint angle d (position p)).1 - (turnPoint angle d a).1| ≤ 100 ∧
      |(turnPoint angle d (position p)).2.1 - (turnPoint angle d a).2.1| ≤ 100 := by
  have H := h i a p ha hp
  have hs := Real.sin_sq_add_cos_sq angle
  have e : ((turnPoint angle d (position p)).1 - (turnPoint angle d a).1) ^ 2
      + ((turnPoint angle d (position p)).2.1 - (turnPoint angle d a).2.1) ^ 2 = (p.x - a.1) ^ 2 + (p.y - a.2.1) ^ 2 := by
    simp only [turnPoint, position]
    linear_combination ((p.x - a.1) ^ 2 + (p.y - a.2.1) ^ 2) * hs
  rw [← e] at H
  constructor
  · exact abs_le_of_sq_le_sq (by nlinarith [sq_nonneg ((turnPoint angle d (position p)).2.1 - (turnPoint angle d a).2.1)]) (by norm_num)
  · exact abs_le_of_sq_le_sq (by nlinarith [sq_nonneg ((turnPoint angle d (position p)).1 - (turnPoint angle d a).1)]) (by norm_num)

theorem apart_turn {closed : Bool} {r : List Vec3} (h : Apart closed r) (angle : ℝ) (d : Vec3) : Apart closed (turnLine angle d r) := by
  intro i a b ha hb
  rw [turnLine, List.getElem?_map, Option.map_eq_some_iff] at ha
  obtain ⟨a, ha, rfl⟩ := ha
  obtain ⟨b, hb₀, rfl⟩ : ∃ b₀, Next closed r i b₀ ∧ turnPoint angle d b₀ = b := by
    unfold Next at hb ⊢
    cases closed
    · simp only [Bool.false_eq_true, if_false, turnLine, List.getElem?_map, Option.map_eq_some_iff] at hb ⊢
      exact hb
    · simp only [if_true, turnLine, List.getElem?_map, List.length_map, Option.map_eq_some_iff] at hb ⊢
      exact hb
  intro e
  refine h i a b ha hb₀ ?_
  have hs := Real.sin_sq_add_cos_sq angle
  simp only [turnPoint, Prod.mk.injEq] at e ⊢
  obtain ⟨e1, e2⟩ := e
  constructor
  · linear_combination Real.cos angle * e1 + Real.sin angle * e2 - (a.1 - b.1) * hs
  · linear_combination Real.cos angle * e2 - Real.sin angle * e1 - (a.2.1 - b.2.1) * hs

/-- C267: without elevation, when boundaries and estimate are turned and moved and the tracks found are within 100 m of the estimate,
the fit has the same misfit and the same direction of travel. -/
theorem C267_turned (angle : ℝ) (d : Vec3) (hd : d.2.2 = 0) (lib : Library) (hfind : FindsClosest lib.find) (hw : WrapsTurns lib.wrap)
    (D : List Vec3 → Vec3 → ℝ) (hD : Measures true D) (opt : Optimiser) (hopt : RightSize opt) (hrel : Reliable 0 0 opt)
    (hmin : Minimises opt) (st : Settings) (closed : Bool) (left right : List Vec3)
    (h2l : 2 ≤ left.length) (h2r : 2 ≤ right.length) (c : Centerline) (h2c : 2 ≤ c.r.length) (hu : Usable closed left right c)
    (ha : Apart closed c.r) (res res' : Fitted) (hres : compute lib opt st .flat closed left right c = .ok res)
    (hres' : compute lib opt st .flat closed (turnLine angle d left) (turnLine angle d right) (c.turned angle d) = .ok res')
    (hc : Close c.r res.points) (hc' : Close (turnLine angle d c.r) res'.points) :
    misfit D .flat closed st.weights (turnLine angle d left) (turnLine angle d right) (turnLine angle d c.r) res'.s res'.length
        res'.points = misfit D .flat closed st.weights left right c.r res.s res.length res.points ∧
    res'.direction = res.direction := by
  have h2l' : 2 ≤ (turnLine angle d left).length := by rw [turnLine, List.length_map]; exact h2l
  have h2r' : 2 ≤ (turnLine angle d right).length := by rw [turnLine, List.length_map]; exact h2r
  have h2c' : 2 ≤ (c.turned angle d).r.length := by simp only [Centerline.turned, turnLine, List.length_map]; exact h2c
  have hu' := usable_turn angle d hu
  obtain ⟨d', hd', b1, b2, -⟩ := turnTrack_back angle d
  have bl : ∀ l, turnLine (-angle) d' (turnLine angle d l) = l := turnLine_back b1
  have bl0 : ∀ l, turnLine (-angle) 0 (turnLine angle 0 l) = l := turnLine_back b2
  have bc : (c.turned angle d).turned (-angle) d' = c := by
    obtain ⟨s, r, t, L⟩ := c
    simp only [Centerline.turned, bl, bl0]
  refine ⟨le_antisymm ?_ ?_, ?_⟩
  · exact fit_le angle d lib hfind D hD opt hopt hrel hmin st .flat (fun _ => hd) closed (.inl rfl) left right h2l h2r c h2c hu
      (guess_flat lib hfind hw closed st.dmax angle d hd left right h2l h2r c hu ha) res res' hres hres' (turned_close hc)
  · have := fit_le (-angle) d' lib hfind D hD opt hopt hrel hmin st .flat (fun _ => hd' hd) closed (.inl rfl) (turnLine angle d left)
      (turnLine angle d right) h2l' h2r' (c.turned angle d) h2c' hu'
      (guess_flat lib hfind hw closed st.dmax (-angle) d' (hd' hd) _ _ h2l' h2r' _ hu' (apart_turn ha angle d)) res' res hres'
      (by rw [bl, bl, bc]; exact hres) (turned_close hc')
    rw [bl, bl, show turnLine (-angle) d' (c.turned angle d).r = c.r from bl c.r] at this
    exact this
  · obtain ⟨ang, g, su, f, hg, -⟩ := compute_result lib opt hopt st .flat closed left right c hu res hres
    obtain ⟨ang', g', su', f', hg', -⟩ := compute_result lib opt hopt st .flat closed _ _ _ hu' res' hres'
    obtain ⟨m, e⟩ := guess_flat lib hfind hw closed st.dmax angle d hd left right h2l h2r c hu ha g _ hg
    rw [hg'] at e
    exact (Prod.mk.inj (Res.ok.inj e)).2

/-! ## Examples: the straight road turned and moved -/

theorem exWraps : WrapsTurns exClosest.wrap := by
  intro a m
  change toIocMod Real.two_pi_pos (-Real.pi) (a + 2 * Real.pi * m) = toIocMod Real.two_pi_pos (-Real.pi) a
  rw [show a + 2 * Real.pi * m = a + m • (2 * Real.pi) by rw [zsmul_eq_mul]; ring, toIocMod_add_zsmul]

theorem exApart : Apart false exEstimate.r := by
  intro i a b ha hb
  match i with
  | 0 =>
    obtain rfl := Option.some.inj ha
    obtain rfl := Option.some.inj (show exEstimate.r[1]? = some b from hb)
    intro e
    have := congrArg Prod.fst e
    norm_num at this
  | i + 1 => simp [Next, exEstimate] at hb

/-- C266, C267: the straight road is a track of its boundaries, and its starting guess is known. -/
example (angle : ℝ) (d : Vec3) (hd : d.2.2 = 0) :
    Obeys .flat false 0 (turnLine angle d exLeft) (turnLine angle d exRight) 0 [0, 10] 10
      ([straightPoint 0, straightPoint 10].map (turnTrack angle d)) ∧
    ∃ angle', SameAngle angle' angle ∧
      startGuess exClosest .flat false 100 (turnLine angle d exLeft) (turnLine angle d exRight) (exEstimate.turned angle d)
        = .ok ([straightPoint 0, straightPoint 10].map (turnTrack angle' d), 0) :=
  ⟨C266_tracks angle d _ _ _ _ _ _ _ _ straight_obeys,
    C267_guess angle d hd exClosest exSearch_closest exWraps false 100 exLeft exRight le_rfl le_rfl exEstimate exEstimate_usable exApart
      _ _ exGuess⟩

theorem exMisfit_turned (L R C : List Vec3) (s len : ℝ) (a b : Point ℝ) :
    misfit exDistance .flat false exSettings.weights L R C [0, s] len [a, b]
      = s / 2 * ((exDistance L (leftEdge a) + exDistance R (rightEdge a)) + (exDistance L (leftEdge b) + exDistance R (rightEdge b))) := by
  simp [misfit, integral, trapezoid, density, exSettings]

theorem exMisfit_zero (angle : ℝ) (d : Vec3) :
    misfit exDistance .flat false exSettings.weights (turnLine angle d exLeft) (turnLine angle d exRight) (turnLine angle d exEstimate.r)
      [0, 10] 10 ([straightPoint 0, straightPoint 10].map (turnTrack angle d)) = 0 := by
  rw [C266_misfit angle d true exDistance exDistance_measures .flat false exSettings.weights exLeft exRight exEstimate.r le_rfl le_rfl
    le_rfl, exMisfit_turned, straight_left, straight_right, straight_left, straight_right, exLeft, exRight,
    exDistance_zero _ _ le_rfl (by norm_num), exDistance_zero _ _ le_rfl (by norm_num), exDistance_zero _ _ (by norm_num) le_rfl,
    exDistance_zero _ _ (by norm_num) le_rfl]
  norm_num

theorem exMisfit_nonneg (L R C : List Vec3) (h2l : 2 ≤ L.length) (h2r : 2 ≤ R.length) (g len : ℝ) (hg : 9 / 10 ≤ g)
    (l : List (Point ℝ)) (hl : l.length = 2) :
    0 ≤ misfit exDistance .flat false exSettings.weights L R C (exEstimate.s.map (g * ·)) len l := by
  match l, hl with
  | [a, b], _ =>
    rw [show exEstimate.s.map (g * ·) = [0, g * 10] by simp [exEstimate], exMisfit_turned]
    have n1 := exDistance_nonneg L (leftEdge a) h2l
    have n2 := exDistance_nonneg R (rightEdge a) h2r
    have n3 := exDistance_nonneg L (leftEdge b) h2l
    have n4 := exDistance_nonneg R (rightEdge b) h2r
    have : 0 ≤ g := by linarith
    positivity

/-- The fit of the turned straight road succeeds. -/
theorem exFit_turned (angle : ℝ) (d : Vec3) (hd : d.2.2 = 0) :
    ∃ res, compute exClosest exOptimiser exSettings .flat false (turnLine angle d exLeft) (turnLine angle d exRight)
      (exEstimate.turned angle d) = .ok res := by
  have hu := usable_turn angle d exEstimate_usable
  obtain ⟨m, hgm⟩ := guess_flat exClosest exSearch_closest exWraps false 100 angle d hd exLeft exRight le_rfl le_rfl exEstimate
    exEstimate_usable exApart _ _ exGuess
  obtain ⟨su, hsu, -, -, -, -, hok, -⟩ := C202_outcome exClosest exOptimiser exOptimiser_rightSize exSettings
    .flat false _ _ _ hu
  obtain ⟨ang, guess, dir, su', hg, hG, hsu', hP⟩ := setup_ok exClosest exSettings .flat false _ _ _ hu
  rw [hsu] at hsu'
  obtain rfl := Res.ok.inj hsu'
  obtain ⟨rfl, rfl⟩ := Prod.mk.inj (Res.ok.inj (hgm.symm.trans hg))
  have hE : Elements su.problem.closed exEstimate.s exEstimate.length su.problem.ds := by
    rw [hP.closed_, hP.ds]; exact hP.elements.2
  have h2 : ∀ l : List Vec3, l.length = 2 → 2 ≤ (turnLine angle d l).length := fun l hl => by rw [turnLine, List.length_map, hl]
  have hval : ∀ (g : ℝ) (l : List (Point ℝ)), l.length = 2 → (∀ p ∈ l, keep .flat p = p) → ∃ rs,
      evaluate su.problem g (circuitOf exClosest su.problem.kind exSettings.dmax (turnLine angle d exLeft) (turnLine angle d exRight)
        (turnLine angle d exEstimate.r) su.problem.ds l).nodes = .ok (misfit exDistance .flat false exSettings.weights
          (turnLine angle d exLeft) (turnLine angle d exRight) (turnLine angle d exEstimate.r) (exEstimate.s.map (g * ·))
          (g * exEstimate.length) l, rs) ∧
      su.nlp.value (g :: l.flatMap (writes .flat)) = .ok (misfit exDistance .flat false exSettings.weights
        (turnLine angle d exLeft) (turnLine angle d exRight) (turnLine angle d exEstimate.r) (exEstimate.s.map (g * ·))
        (g * exEstimate.length) l :: rs) := by
    intro g l hl hk
    obtain ⟨cost, rs, e1, -, e3⟩ := value_vector exClosest exSettings su.problem (turnLine angle d exLeft) (turnLine angle d exRight)
      (turnLine angle d exEstimate.r) l (List.ne_nil_of_length_pos (by omega))
      (by rw [hP.ds, hP.elements.2.length, hP.closed_, hl]; rfl) g
    have := cost_eq exClosest exSearch_closest exDistance exDistance_measures exSettings.dmax su.problem
      (.inl hP.kind) (turnLine angle d exLeft) (turnLine angle d exRight) (turnLine angle d exEstimate.r) (h2 _ rfl) (h2 _ rfl)
      (h2 _ rfl) l (by rw [hP.kind]; exact hk) exEstimate.s exEstimate.length hl (by simp [exEstimate]) hE g cost rs e1
    rw [hP.kind, hP.closed_, hP.weights] at this
    rw [hP.kind, hP.closed_, hl] at e3
    subst this
    exact ⟨rs, e1, by rw [hP.value]; exact e3⟩
  have hk0 : ∀ p ∈ [straightPoint 0, straightPoint 10].map (turnTrack (angle + 2 * Real.pi * m) d), keep .flat p = p := by
    intro p hp
    obtain ⟨p, hp', rfl⟩ := List.mem_map.1 hp
    refine keep_turn (fun _ => hd) ?_
    simp only [List.mem_cons, List.not_mem_nil, or_false] at hp'
    rcases hp' with rfl | rfl <;> rfl
  refine hok ?_
  have hsol : ∃ x, Solves su.nlp x := by
    refine ⟨1 :: ([straightPoint 0, straightPoint 10].map (turnTrack (angle + 2 * Real.pi * m) d)).flatMap (writes .flat), 0, ?_, ?_⟩
    · obtain ⟨rs, e1, e2⟩ := hval 1 _ rfl hk0
      have z := exMisfit_zero (angle + 2 * Real.pi * m) d
      rw [turnLine_turns] at z
      rw [show exEstimate.s.map ((1 : ℝ) * ·) = [0, 10] by simp [exEstimate],
        show (1 : ℝ) * exEstimate.length = 10 by simp [exEstimate], z] at e1 e2
      refine ⟨by rw [hP.start], ?_, rs, e2, ?_⟩
      · rw [hP.lower, hP.upper, within_iff .flat _ _ _ _ _ _ rfl]
        refine ⟨⟨by norm_num, by norm_num⟩, fun Q i p g hQ hp hg => ?_⟩
        rw [hp] at hg
        obtain rfl := Option.some.inj hg
        have : ∃ x, p = turnTrack (angle + 2 * Real.pi * m) d (straightPoint x) := by
          match i with
          | 0 => exact ⟨0, (Option.some.inj hp).symm⟩
          | 1 => exact ⟨10, (Option.some.inj hp).symm⟩
          | i + 2 => simp at hp
        obtain ⟨x, rfl⟩ := this
        cases Q <;> simp [straightPoint, Point.get, allowed, turnTrack, exSettings]
      · intro r hr
        have := (obeys_iff exClosest exSettings.dmax su.problem (turnLine angle d exLeft) (turnLine angle d exRight)
          (turnLine angle d exEstimate.r) _ (by rw [hP.kind]; exact hk0) exEstimate.s exEstimate.length rfl (by simp [exEstimate]) hE
          hP.leftFirst hP.rightFirst hP.leftLast hP.rightLast 1 0 0 rs e1).2 (by
            rw [hP.kind, hP.closed_, hP.direction]
            have := C266_tracks (angle + 2 * Real.pi * m) d _ _ _ _ _ _ _ _ straight_obeys
            rw [turnLine_turns] at this
            simpa [exEstimate] using this) r hr
        exact abs_eq_zero.1 (le_antisymm this (abs_nonneg r))
    · rintro y cost ⟨hy, hw, rs, hv, -⟩
      obtain ⟨g, l, hl, rfl, hk⟩ := represent .flat 2 y (by rw [hy, hP.start]; rfl)
      obtain ⟨rs', -, e2⟩ := hval g l hl hk
      rw [e2] at hv
      obtain ⟨rfl, -⟩ := List.cons.inj (Res.ok.inj hv)
      rw [hP.lower, hP.upper, within_iff .flat _ _ _ _ _ _ hl] at hw
      exact exMisfit_nonneg _ _ _ (h2 _ rfl) (h2 _ rfl) g _ (by linarith [hw.1.1]) l hl
  unfold exOptimiser
  rw [dif_pos hsol]

/-- C266: the fit of the straight road, moved, has the same misfit. -/
example : ∃ res res', compute exClosest exOptimiser exSettings .flat false exLeft exRight exEstimate = .ok res ∧
    compute exClosest exOptimiser exSettings .flat false (turnLine 0 (7, -3, 0) exLeft) (turnLine 0 (7, -3, 0) exRight)
      (exEstimate.turned 0 (7, -3, 0)) = .ok res' ∧
    misfit exDistance .flat false exSettings.weights (turnLine 0 (7, -3, 0) exLeft) (turnLine 0 (7, -3, 0) exRight)
        (turnLine 0 (7, -3, 0) exEstimate.r) res'.s res'.length res'.points
      = misfit exDistance .flat false exSettings.weights exLeft exRight exEstimate.r res.s res.length res.points := by
  obtain ⟨res, h⟩ := exFit
  obtain ⟨res', h'⟩ := exFit_turned 0 (7, -3, 0) rfl
  exact ⟨res, res', h, h', (C266_moved (7, -3, 0) exClosest exSearch_closest exDistance exDistance_measures exOptimiser
    exOptimiser_rightSize exOptimiser_reliable exOptimiser_minimises exSettings .flat (fun _ => rfl) false (.inl rfl) exLeft exRight
    le_rfl le_rfl exEstimate le_rfl exEstimate_usable res res' h h').1⟩

theorem exOnLeft {q : Vec3} (h : OnLine (vertices true exLeft) q) : 0 ≤ q.1 ∧ q.1 ≤ 10 ∧ q.2.1 = 0 := by
  obtain ⟨j, t, h0, h1, a, b, ha, hb, rfl⟩ := h
  match j with
  | 0 =>
    obtain rfl := Option.some.inj ha
    obtain rfl := Option.some.inj hb
    simp only [Prod.mk_sub_mk, Prod.smul_mk, Prod.mk_add_mk, smul_eq_mul]
    exact ⟨by linarith, by linarith, by ring⟩
  | 1 =>
    obtain rfl := Option.some.inj ha
    obtain rfl := Option.some.inj hb
    simp only [Prod.mk_sub_mk, Prod.smul_mk, Prod.mk_add_mk, smul_eq_mul]
    exact ⟨by linarith, by linarith, by ring⟩
  | j + 2 => simp [vertices, exLeft] at hb

theorem exOnLine {line : List Vec3} {p : Vec3} (h2 : 2 ≤ line.length) (h : exDistance line p = 0) : OnLine (vertices true line) p := by
  obtain ⟨⟨q, hq, e⟩, -⟩ := exDistance_measures line p h2
  rw [h] at e
  have e0 : len (q - p) = 0 := by
    rcases pow_eq_zero_iff (two_ne_zero) |>.1 e.symm with h
    exact h
  have e1 : Road.dot (q - p) (q - p) ≤ 0 := Real.sqrt_eq_zero'.1 e0
  obtain ⟨x, y, z⟩ := q
  obtain ⟨x', y', z'⟩ := p
  simp only [Road.dot, Prod.mk_sub_mk] at e1
  have a1 : x - x' = 0 := by nlinarith [mul_self_nonneg (x - x'), mul_self_nonneg (y - y'), mul_self_nonneg (z - z')]
  have a2 : y - y' = 0 := by nlinarith [mul_self_nonneg (x - x'), mul_self_nonneg (y - y'), mul_self_nonneg (z - z')]
  have a3 : z - z' = 0 := by nlinarith [mul_self_nonneg (x - x'), mul_self_nonneg (y - y'), mul_self_nonneg (z - z')]
  rw [show x' = x by linarith, show y' = y by linarith, show z' = z by linarith]
  exact hq

/-- The tracks fitted to the turned straight road are close to the estimate: their left boundary is on the measured one. -/
theorem exClose (angle : ℝ) (d : Vec3) (hd : d.2.2 = 0) (res : Fitted)
    (h : compute exClosest exOptimiser exSettings .flat false (turnLine angle d exLeft) (turnLine angle d exRight)
      (exEstimate.turned angle d) = .ok res) : Close (turnLine angle d exEstimate.r) res.points := by
  have hu := usable_turn angle d exEstimate_usable
  have h2 : ∀ l : List Vec3, l.length = 2 → 2 ≤ (turnLine angle d l).length := fun l hl => by rw [turnLine, List.length_map, hl]
  obtain ⟨m, hgm⟩ := guess_flat exClosest exSearch_closest exWraps false 100 angle d hd exLeft exRight le_rfl le_rfl exEstimate
    exEstimate_usable exApart _ _ exGuess
  obtain ⟨guess, f, hg, hn, hgn, hf, hf', hs, hl, -, hnear, -⟩ :=
    C203_track exClosest exOptimiser exOptimiser_rightSize 0 0 exOptimiser_reliable exSettings .flat false _ _ _ hu res h
  obtain ⟨rfl, -⟩ := Prod.mk.inj (Res.ok.inj (hgm.symm.trans hg))
  have hob := C266_tracks (angle + 2 * Real.pi * m) d _ _ _ _ _ _ _ _ straight_obeys
  have z := exMisfit_zero (angle + 2 * Real.pi * m) d
  rw [turnLine_turns] at z hob
  have hle := C204_optimal_partial exClosest exSearch_closest exDistance exDistance_measures exOptimiser exOptimiser_rightSize
    exOptimiser_minimises exSettings .flat false (.inl rfl) _ _ (h2 _ rfl) (h2 _ rfl) _ (h2 _ rfl) hu res h _ _ hgm 1
    ([straightPoint 0, straightPoint 10].map (turnTrack (angle + 2 * Real.pi * m) d)) (by norm_num) (by norm_num) rfl
    (fun p hp => by
      obtain ⟨p, hp', rfl⟩ := List.mem_map.1 hp
      refine keep_turn (fun _ => hd) ?_
      simp only [List.mem_cons, List.not_mem_nil, or_false] at hp'
      rcases hp' with rfl | rfl <;> rfl)
    (by simpa [exEstimate, Centerline.turned] using hob)
    (by
      intro Q i p g hQ hp hg
      rw [hp] at hg
      obtain rfl := Option.some.inj hg
      have : ∃ x, p = turnTrack (angle + 2 * Real.pi * m) d (straightPoint x) := by
        match i with
        | 0 => exact ⟨0, (Option.some.inj hp).symm⟩
        | 1 => exact ⟨10, (Option.some.inj hp).symm⟩
        | i + 2 => simp at hp
      obtain ⟨x, rfl⟩ := this
      cases Q <;> simp [straightPoint, Point.get, allowed, turnTrack, exSettings])
  rw [show (exEstimate.turned angle d).s.map ((1 : ℝ) * ·) = [0, 10] by simp [exEstimate, Centerline.turned],
    show (1 : ℝ) * (exEstimate.turned angle d).length = 10 by simp [exEstimate, Centerline.turned],
    show (exEstimate.turned angle d).r = turnLine angle d exEstimate.r from rfl, z, hs,
    show (exEstimate.turned angle d).s.map (f * ·) = [0, f * 10] by simp [exEstimate, Centerline.turned]] at hle
  have near : ∀ (i : Nat) (p : Point ℝ), res.points[i]? = some p → 0 ≤ p.nl ∧ p.nl ≤ 4 := by
    intro i p hp
    have hi : i < 2 := by
      have := (List.getElem?_eq_some_iff.1 hp).1
      rwa [hn] at this
    have : ∃ x, ([straightPoint 0, straightPoint 10].map (turnTrack (angle + 2 * Real.pi * m) d))[i]?
        = some (turnTrack (angle + 2 * Real.pi * m) d (straightPoint x)) := by
      match i, hi with
      | 0, _ => exact ⟨0, rfl⟩
      | 1, _ => exact ⟨10, rfl⟩
    obtain ⟨x, hx⟩ := this
    have := hnear .nl i p _ rfl hp hx
    simp only [allowed, Point.get, turnTrack, straightPoint] at this
    constructor <;> linarith
  have edge : ∀ p ∈ res.points, exDistance (turnLine angle d exLeft) (leftEdge p) = 0 := by
    match hr : res.points, hn with
    | [a, b], _ =>
      rw [hr, exMisfit_turned] at hle
      have n1 := exDistance_nonneg (turnLine angle d exLeft) (leftEdge a) (h2 _ rfl)
      have n2 := exDistance_nonneg (turnLine angle d exRight) (rightEdge a) (h2 _ rfl)
      have n3 := exDistance_nonneg (turnLine angle d exLeft) (leftEdge b) (h2 _ rfl)
      have n4 := exDistance_nonneg (turnLine angle d exRight) (rightEdge b) (h2 _ rfl)
      have hpos : 0 < f * 10 / 2 := by linarith
      have := nonpos_of_mul_nonpos_right hle hpos
      intro p hp
      simp only [List.mem_cons, List.not_mem_nil, or_false] at hp
      rcases hp with rfl | rfl <;> linarith
  intro i a p ha hp
  obtain ⟨n0, n4⟩ := near i p hp
  obtain ⟨q, hq, e⟩ := onLine_turned (by
    have := exOnLine (h2 exLeft rfl) (edge p (List.mem_of_getElem? hp))
    rwa [vertices_turn] at this)
  obtain ⟨q0, q1, q2⟩ := exOnLeft hq
  rw [turnLine, List.getElem?_map, Option.map_eq_some_iff] at ha
  obtain ⟨a, ha, rfl⟩ := ha
  obtain ⟨a0, a1, a2⟩ : 0 ≤ a.1 ∧ a.1 ≤ 10 ∧ a.2.1 = 2 := by
    match i with
    | 0 => obtain rfl := Option.some.inj ha; norm_num
    | 1 => obtain rfl := Option.some.inj ha; norm_num
    | i + 2 => simp [exEstimate] at ha
  have hside := (C203_side p).2.2.1
  rw [abs_of_nonneg n0, ← e] at hside
  have hsq : ((turnPoint angle d q).1 - p.x) ^ 2 + ((turnPoint angle d q).2.1 - p.y) ^ 2 ≤ 16 := by
    have h3 : Road.dot (turnPoint angle d q - position p) (turnPoint angle d q - position p) = p.nl ^ 2 := by
      rw [← hside, sq, len_sq]; simp only [Road.dot, sq]
    simp only [Road.dot, position, Prod.fst_sub, Prod.snd_sub] at h3
    nlinarith [mul_self_nonneg ((turnPoint angle d q).2.2 - p.z)]
  have hsq2 : ((turnPoint angle d q).1 - (turnPoint angle d a).1) ^ 2 + ((turnPoint angle d q).2.1 - (turnPoint angle d a).2.1) ^ 2
      = (q.1 - a.1) ^ 2 + 4 := by
    have hs := Real.sin_sq_add_cos_sq angle
    simp only [turnPoint, q2, a2]
    linear_combination ((q.1 - a.1) ^ 2 + 4) * hs
  have hq3 : (q.1 - a.1) ^ 2 ≤ 100 := by nlinarith
  nlinarith [sq_nonneg (2 * (turnPoint angle d q).1 - p.x - (turnPoint angle d a).1),
    sq_nonneg (2 * (turnPoint angle d q).2.1 - p.y - (turnPoint angle d a).2.1)]

/-- C267: the fit of the straight road, turned by one radian and moved, has the same misfit. -/
example : ∃ res res', compute exClosest exOptimiser exSettings .flat false exLeft exRight exEstimate = .ok res ∧
    compute exClosest exOptimiser exSettings .flat false (turnLine 1 (7, -3, 0) exLeft) (turnLine 1 (7, -3, 0) exRight)
      (exEstimate.turned 1 (7, -3, 0)) = .ok res' ∧
    misfit exDistance .flat false exSettings.weights (turnLine 1 (7, -3, 0) exLeft) (turnLine 1 (7, -3, 0) exRight)
        (turnLine 1 (7, -3, 0) exEstimate.r) res'.s res'.length res'.points
      = misfit exDistance .flat false exSettings.weights exLeft exRight exEstimate.r res.s res.length res.points := by
  obtain ⟨res, h⟩ := exFit
  obtain ⟨res', h'⟩ := exFit_turned 1 (7, -3, 0) rfl
  have hc : Close exEstimate.r res.points := by
    have := exClose 0 0 rfl res (by
      rw [turnLine_zero, turnLine_zero, show exEstimate.turned 0 0 = exEstimate by simp only [Centerline.turned, turnLine_zero]]
      exact h)
    rwa [turnLine_zero] at this
  exact ⟨res, res', h, h', (C267_turned 1 (7, -3, 0) rfl exClosest exSearch_closest exWraps exDistance exDistance_measures exOptimiser
    exOptimiser_rightSize exOptimiser_reliable exOptimiser_minimises exSettings false exLeft exRight
    le_rfl le_rfl exEstimate le_rfl exEstimate_usable exApart res res' h h' hc (exClose 1 (7, -3, 0) rfl res' h')).1⟩

end Verif.Fit
