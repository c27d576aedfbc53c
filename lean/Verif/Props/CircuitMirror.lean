import Verif.Lemmas.CircuitMirror
import Verif.Props.CircuitMoves

/-! Properties of the fit of the mirror image of a circuit (C268, C269). -/

set_option autoImplicit false

namespace Verif.Fit

open Verif.Road (Vec3)
open Verif.Preprocessor

/-! ## C268 -/

/-- C268: the mirror image of a track of the measured boundaries is a track of their mirror image, left and right exchanged, in the
opposite direction, with the same tolerance. -/
theorem C268_tracks (turns : ℤ) (k : Kind) (closed : Bool) (dir : ℤ) (left right : List Vec3) (tol : ℝ) (s : List ℝ) (length : ℝ)
    (pts : List (Point ℝ)) (h : Obeys k closed dir left right tol s length pts) :
    Obeys k closed (-dir) (mirrorLine right) (mirrorLine left) tol s length (pts.map (mirrorTrack turns)) where
  inner := by
    intro Q i a b s₀ s₁ h1 h2 ha hb hs hs'
    rw [List.getElem?_map, Option.map_eq_some_iff] at ha hb
    obtain ⟨a, ha, rfl⟩ := ha
    obtain ⟨b, hb, rfl⟩ := hb
    have H : ChangesTo k tol (s₁ - s₀) (fun _ => 0) a b := fun Q h1 h2 => by
      simpa only [add_zero] using h.inner Q i a b s₀ s₁ h1 h2 ha hb hs hs'
    have := changes_mirror (t' := fun _ => 0) (fun _ _ => rfl) (fun _ _ => rfl) (by simp) H turns Q h1 h2
    simpa only [add_zero] using this
  closing := by
    intro hc Q a b s₁ h1 h2 ha hb hs
    rw [List.head?_map, Option.map_eq_some_iff] at ha
    rw [List.getLast?_map, Option.map_eq_some_iff] at hb
    obtain ⟨a, ha, rfl⟩ := ha
    obtain ⟨b, hb, rfl⟩ := hb
    have H : ChangesTo k tol (length - s₁) (turn dir) b a := fun Q h1 h2 => h.closing hc Q a b s₁ h1 h2 ha hb hs
    exact changes_mirror (t' := turn (-dir)) (fun Q hQ => if_neg hQ) (fun Q hQ => if_neg hQ) (by simp [turn]) H turns Q h1 h2
  start := by
    intro a l r ha hl hr
    rw [List.head?_map, Option.map_eq_some_iff] at ha
    rw [mirrorLine, List.head?_map, Option.map_eq_some_iff] at hl hr
    obtain ⟨a, ha, rfl⟩ := ha
    obtain ⟨l, hl, rfl⟩ := hl
    obtain ⟨r, hr, rfl⟩ := hr
    rw [position_mirror, offset_mirror]
    exact h.start a r l ha hr hl
  finish := by
    intro hc a l r ha hl hr
    rw [List.getLast?_map, Option.map_eq_some_iff] at ha
    rw [mirrorLine, List.getLast?_map, Option.map_eq_some_iff] at hl hr
    obtain ⟨a, ha, rfl⟩ := ha
    obtain ⟨l, hl, rfl⟩ := hl
    obtain ⟨r, hr, rfl⟩ := hr
    rw [position_mirror, offset_mirror]
    exact h.finish hc a r l ha hr hl

/-- C268: the mirror image of a track fits the mirror image of the boundaries as well as the track fits the boundaries. -/
theorem C268_misfit (turns : ℤ) (closed' : Bool) (D : List Vec3 → Vec3 → ℝ) (hD : Measures closed' D) (k : Kind)
    (closed : Bool) (w : Weights) (left right centreline : List Vec3) (h2l : 2 ≤ left.length) (h2r : 2 ≤ right.length)
    (h2c : 2 ≤ centreline.length) (s : List ℝ) (length : ℝ) (pts : List (Point ℝ)) :
    misfit D k closed w (mirrorLine right) (mirrorLine left) (mirrorLine centreline) s length (pts.map (mirrorTrack turns))
      = misfit D k closed w left right centreline s length pts := by
  unfold misfit
  rw [List.map_map]
  congr 2
  refine List.map_congr_left fun p _ => ?_
  simp only [Function.comp_apply]
  rw [(edges_mirror turns p).1, (edges_mirror turns p).2, position_mirror, measure_mirror hD left h2l,
    measure_mirror hD right h2r, measure_mirror hD centreline h2c]
  simp only [density, mirrorTrack]
  split <;> ring

/-! ## C269 -/

/-- C269: without elevation, the starting guess for the mirror image of boundaries and estimate is the mirror image of the starting
guess, in the opposite direction, unless the estimate turns straight back somewhere or the first and last heading of the guess of a closed
circuit are equal. -/
theorem C269_guess (lib : Library) (hfind : FindsClosest lib.find) (hw : WrapsToPi lib.wrap) (closed : Bool) (dmax : ℝ)
    (left right : List Vec3) (h2l : 2 ≤ left.length) (h2r : 2 ≤ right.length) (c : Centerline)
    (hu : Usable closed left right c) (ha : Apart closed c.r) (hn : NoReversal closed c.r)
    (guess : List (Point ℝ)) (dir : ℤ) (hg : startGuess lib .flat closed dmax left right c = .ok (guess, dir))
    (hne : closed = true → ∀ a b, guess.head? = some a → guess.getLast? = some b → a.yaw ≠ b.yaw) :
    ∃ turns : ℤ, startGuess lib .flat closed dmax (mirrorLine right) (mirrorLine left) c.mirrored
      = .ok (guess.map (mirrorTrack turns), -dir) :=
  guess_flat_mirror lib hfind hw closed dmax left right h2l h2r c hu ha hn guess dir hg hne

/-- One half of the equality of the least misfits. -/
theorem fit_mirror_le (lib : Library) (hfind : FindsClosest lib.find) (D : List Vec3 → Vec3 → ℝ)
    (hD : Measures true D) (opt : Optimiser) (hopt : RightSize opt) (hrel : Reliable 0 0 opt) (hmin : Minimises opt)
    (st : Settings) (closed : Bool) (left right : List Vec3)
    (h2l : 2 ≤ left.length) (h2r : 2 ≤ right.length) (c : Centerline) (h2c : 2 ≤ c.r.length) (hu : Usable closed left right c)
    (guess : List (Point ℝ)) (dir m : ℤ) (hg₀ : startGuess lib .flat closed st.dmax left right c = .ok (guess, dir))
    (hg' : startGuess lib .flat closed st.dmax (mirrorLine right) (mirrorLine left) c.mirrored = .ok (guess.map (mirrorTrack m), -dir))
    (res res' : Fitted) (hres : compute lib opt st .flat closed left right c = .ok res)
    (hres' : compute lib opt st .flat closed (mirrorLine right) (mirrorLine left) c.mirrored = .ok res') :
    misfit D .flat closed st.weights (mirrorLine right) (mirrorLine left) (mirrorLine c.r) res'.s res'.length res'.points
      ≤ misfit D .flat closed st.weights left right c.r res.s res.length res.points := by
  obtain ⟨guess₀, f, hg, hn, hgn, hf, hf', hs, hl, hob, hnear, -⟩ :=
    C203_track lib opt hopt 0 0 hrel st .flat closed left right c hu res hres
  obtain ⟨ang, guess₁, su, f₁, hg₁, hG, -, -, -, -, hkeep, -⟩ := compute_result lib opt hopt st .flat closed left right c hu res hres
  obtain ⟨rfl, hdir⟩ := Prod.mk.inj (Res.ok.inj (hg₀.symm.trans hg))
  have hob' := C268_tracks m .flat closed res.direction left right 0 res.s res.length res.points hob
  rw [← hdir] at hob'
  rw [← C268_misfit m true D hD .flat closed st.weights left right c.r h2l h2r h2c res.s res.length res.points]
  have key := C204_optimal_partial lib hfind D hD opt hopt hmin st .flat closed (.inl rfl) (mirrorLine right) (mirrorLine left)
    (by rw [mirrorLine, List.length_map]; exact h2r) (by rw [mirrorLine, List.length_map]; exact h2l) c.mirrored
    (by simp only [Centerline.mirrored, mirrorLine, List.length_map]; exact h2c) (usable_mirror hu) res' hres' _ _ hg' f
    (res.points.map (mirrorTrack m)) (by linarith) (by linarith)
    (by rw [List.length_map]; exact hn)
    (fun p hp => by
      obtain ⟨p, hp', rfl⟩ := List.mem_map.1 hp
      exact keep_mirror m (hkeep p hp'))
    (by
      have : c.mirrored.s.map (f * ·) = res.s := hs.symm
      have hl' : f * c.mirrored.length = res.length := hl.symm
      rw [this, hl']
      exact hob')
    (by
      intro Q i p g hQ hp hg
      rw [List.getElem?_map, Option.map_eq_some_iff] at hp hg
      obtain ⟨p, hp, rfl⟩ := hp
      obtain ⟨g, hg, rfl⟩ := hg
      have hN := fun Q hQ => hnear Q i p g hQ hp hg
      cases Q
      case x => exact hN .x rfl
      case nl =>
        have := hN .nr rfl
        simp only [allowed, Point.get, mirrorTrack] at this ⊢
        constructor <;> linarith
      case nr =>
        have := hN .nl rfl
        simp only [allowed, Point.get, mirrorTrack] at this ⊢
        constructor <;> linarith
      case dnl => exact hN .dnr rfl
      case dnr => exact hN .dnl rfl
      all_goals first
        | exact absurd hQ (by decide)
        | (have := hN _ hQ
           simp only [allowed, Point.get, mirrorTrack] at this ⊢
           constructor <;> linarith))
  rw [show c.mirrored.r = mirrorLine c.r from rfl, show c.mirrored.s = c.s from rfl,
    show c.mirrored.length = c.length from rfl, ← hs, ← hl] at key
  exact key

theorem mirrored_back (c : Centerline) : c.mirrored.mirrored = c := by
  obtain ⟨s, r, t, L⟩ := c
  have : ∀ v : Vec3, mirrorPoint (-mirrorPoint (-v)) = v := by
    rintro ⟨x, y, z⟩
    simp [mirrorPoint]
  simp [Centerline.mirrored, mirrorLine_back, Function.comp_def, this]

theorem mirrorTrack_back (m : ℤ) (p : Point ℝ) : mirrorTrack m (mirrorTrack m p) = p := by
  simp only [mirrorTrack, neg_neg, sub_sub_cancel]

/-- C269: without elevation, the fit of the mirror image of boundaries and estimate has the same misfit and the opposite direction of
travel, under the conditions of the guess above. -/
theorem C269_mirrored (lib : Library) (hfind : FindsClosest lib.find) (hw : WrapsToPi lib.wrap) (D : List Vec3 → Vec3 → ℝ)
    (hD : Measures true D) (opt : Optimiser) (hopt : RightSize opt) (hrel : Reliable 0 0 opt) (hmin : Minimises opt)
    (st : Settings) (closed : Bool) (left right : List Vec3)
    (h2l : 2 ≤ left.length) (h2r : 2 ≤ right.length) (c : Centerline) (h2c : 2 ≤ c.r.length) (hu : Usable closed left right c)
    (ha : Apart closed c.r) (hn : NoReversal closed c.r)
    (hne : closed = true → ∀ guess dir, startGuess lib .flat closed st.dmax left right c = .ok (guess, dir) →
      ∀ a b, guess.head? = some a → guess.getLast? = some b → a.yaw ≠ b.yaw)
    (res res' : Fitted) (hres : compute lib opt st .flat closed left right c = .ok res)
    (hres' : compute lib opt st .flat closed (mirrorLine right) (mirrorLine left) c.mirrored = .ok res') :
    misfit D .flat closed st.weights (mirrorLine right) (mirrorLine left) (mirrorLine c.r) res'.s res'.length res'.points
      = misfit D .flat closed st.weights left right c.r res.s res.length res.points ∧
    res'.direction = -res.direction := by
  obtain ⟨ang, g, su, f, hg, -⟩ := compute_result lib opt hopt st .flat closed left right c hu res hres
  obtain ⟨ang', g', su', f', hg', -⟩ := compute_result lib opt hopt st .flat closed _ _ _ (usable_mirror hu) res' hres'
  obtain ⟨m, e⟩ := C269_guess lib hfind hw closed st.dmax left right h2l h2r c hu ha hn g _ hg fun hc => hne hc g _ hg
  refine ⟨le_antisymm ?_ ?_, ?_⟩
  · exact fit_mirror_le lib hfind D hD opt hopt hrel hmin st closed left right h2l h2r c h2c hu g _ m hg e res res' hres hres'
  · have := fit_mirror_le lib hfind D hD opt hopt hrel hmin st closed (mirrorLine right) (mirrorLine left)
      (by rw [mirrorLine, List.length_map]; exact h2r) (by rw [mirrorLine, List.length_map]; exact h2l) c.mirrored
      (by simp only [Centerline.mirrored, mirrorLine, List.length_map]; exact h2c) (usable_mirror hu) _ _ m e
      (by
        rw [mirrorLine_back, mirrorLine_back, mirrored_back, List.map_map, neg_neg]
        rw [show mirrorTrack m ∘ mirrorTrack m = id from funext fun p => mirrorTrack_back m p, List.map_id]
        exact hg)
      res' res hres' (by rw [mirrorLine_back, mirrorLine_back, mirrored_back]; exact hres)
    rw [mirrorLine_back, mirrorLine_back, show mirrorLine c.mirrored.r = c.r from mirrorLine_back c.r] at this
    exact this
  · rw [hg'] at e
    exact (Prod.mk.inj (Res.ok.inj e)).2

/-! ## Examples: the mirror image of the straight road -/

theorem exNoReversal : NoReversal false exEstimate.r := by
  intro i a b c ha hb hc
  match i with
  | 0 => simp [Next, exEstimate] at hc
  | i + 1 => simp [Next, exEstimate] at hb

theorem exMirror : mirrorLine exRight = turnLine 0 (0, -4, 0) exLeft ∧ mirrorLine exLeft = turnLine 0 (0, -4, 0) exRight ∧
    exEstimate.mirrored = exEstimate.turned 0 (0, -4, 0) := by
  simp only [turnLine, exLeft, exRight, mirrorLine, List.map_cons, List.map_nil, turn_zero, exEstimate, Centerline.mirrored,
    Centerline.turned]
  norm_num [mirrorPoint]

/-- C268: the mirror image of the straight road is a track of the mirror image of its boundaries. -/
example : Obeys .flat false 0 (mirrorLine exRight) (mirrorLine exLeft) 0 [0, 10] 10
    ([straightPoint 0, straightPoint 10].map (mirrorTrack 0)) := C268_tracks 0 _ _ _ _ _ _ _ _ _ straight_obeys

/-- C268: and so is that of the road turned by a quarter, which heads the other way. -/
example : Obeys .flat false 0 (mirrorLine (Path.turnPoint (Real.pi / 2) 0 <$> exRight))
      (mirrorLine (Path.turnPoint (Real.pi / 2) 0 <$> exLeft)) 0 [0, 10] 10
      (([straightPoint 0, straightPoint 10].map (turnTrack (Real.pi / 2) 0)).map (mirrorTrack 0)) ∧
    (mirrorTrack 0 (turnTrack (Real.pi / 2) 0 (straightPoint 0))).yaw = -(Real.pi / 2) := by
  refine ⟨C268_tracks 0 _ _ _ _ _ _ _ _ _ (C266_tracks (Real.pi / 2) 0 _ _ _ _ _ _ _ _ straight_obeys), ?_⟩
  simp [mirrorTrack, turnTrack, straightPoint]

/-- C269: the fit of the mirror image of the straight road has the same misfit. -/
example : ∃ res res', compute exClosest exOptimiser exSettings .flat false exLeft exRight exEstimate = .ok res ∧
    compute exClosest exOptimiser exSettings .flat false (mirrorLine exRight) (mirrorLine exLeft) exEstimate.mirrored = .ok res' ∧
    misfit exDistance .flat false exSettings.weights (mirrorLine exRight) (mirrorLine exLeft) (mirrorLine exEstimate.r)
        res'.s res'.length res'.points
      = misfit exDistance .flat false exSettings.weights exLeft exRight exEstimate.r res.s res.length res.points := by
  obtain ⟨res, h⟩ := exFit
  obtain ⟨res', h'⟩ := exFit_turned 0 (0, -4, 0) rfl
  rw [← exMirror.1, ← exMirror.2.1, ← exMirror.2.2] at h'
  exact ⟨res, res', h, h', (C269_mirrored exClosest exSearch_closest exClosest_wraps exDistance exDistance_measures exOptimiser
    exOptimiser_rightSize exOptimiser_reliable exOptimiser_minimises exSettings false exLeft exRight
    le_rfl le_rfl exEstimate le_rfl exEstimate_usable exApart exNoReversal (fun h => by cases h) res res' h h').1⟩

/-! A square travelled clockwise, the right boundary inside. -/

def exOuter : List Vec3 := [(-1, -1, 0), (11, -1, 0), (11, 11, 0), (-1, 11, 0)]

def exInner : List Vec3 := [(1, 1, 0), (9, 1, 0), (9, 9, 0), (1, 9, 0)]

def exSquare : Centerline :=
  ⟨[0, 10, 20, 30], [(0, 0, 0), (10, 0, 0), (10, 10, 0), (0, 10, 0)], [(1, 1, 0), (-1, 1, 0), (-1, -1, 0), (1, -1, 0)], 40⟩

theorem exSquare_usable : Usable true exOuter exInner exSquare :=
  ⟨rfl, rfl, rfl, fun h => (by cases h), fun h => (by cases h), by simp [exOuter], by simp [exInner]⟩

theorem exSquare_apart : Apart true exSquare.r := by
  intro i a b ha hb
  match i with
  | 0 => simp [Next, exSquare] at ha hb; subst ha hb; simp
  | 1 => simp [Next, exSquare] at ha hb; subst ha hb; simp
  | 2 => simp [Next, exSquare] at ha hb; subst ha hb; simp
  | 3 => simp [Next, exSquare] at ha hb; subst ha hb; simp
  | i + 4 => simp [exSquare] at ha

theorem exSquare_forward : NoReversal true exSquare.r := by
  intro i a b c ha hb hc
  match i with
  | 0 => simp [Next, exSquare] at ha hb hc; subst ha hb hc; simp [Reverses]
  | 1 => simp [Next, exSquare] at ha hb hc; subst ha hb hc; simp [Reverses]
  | 2 => simp [Next, exSquare] at ha hb hc; subst ha hb hc; simp [Reverses]
  | 3 => simp [Next, exSquare] at ha hb hc; subst ha hb hc; simp [Reverses]
  | i + 4 => simp [exSquare] at ha

/-- The first heading of the square is along the first axis, the last one against the second axis. -/
theorem exSquare_headings (guess : List (Point ℝ)) (dir : ℤ)
    (hg : startGuess exClosest .flat true 100 exOuter exInner exSquare = .ok (guess, dir)) (a b : Point ℝ)
    (ha : guess.head? = some a) (hb : guess.getLast? = some b) : a.yaw ≠ b.yaw := by
  obtain ⟨ang, pts, dir', hg', hG⟩ := startGuess_ok exClosest .flat true 100 exOuter exInner exSquare exSquare_usable
  obtain ⟨rfl, rfl⟩ := Prod.mk.inj (Res.ok.inj (hg.symm.trans hg'))
  obtain ⟨p, hp, -, -, -, py, -⟩ := hG.at_ 0 (by simp [exSquare])
  obtain ⟨q, hq, -, -, -, qy, -⟩ := hG.at_ 3 (by simp [exSquare])
  rw [List.head?_eq_getElem?, hp] at ha
  rw [List.getLast?_eq_getElem?, hG.length, show exSquare.r.length - 1 = 3 from rfl, hq] at hb
  obtain rfl := Option.some.inj ha
  obtain rfl := Option.some.inj hb
  have hr := hG.raw
  unfold angles at hr
  rcases e : rawHeadings true (exSquare.r.map fun p => (p.1, p.2.1)) with raw | _ | _
  · rw [e] at hr
    obtain rfl := Res.ok.inj hr
    simp only [List.map_map, Function.comp_def, List.map_id'] at py qy
    have hl : (unwrap exClosest.wrap raw).length = 4 := by
      obtain ⟨ang, hang, hal⟩ := angles_ok exClosest .flat true exSquare (by simp [exSquare]) (by simp) rfl
      rw [hG.raw] at hang
      obtain rfl := Res.ok.inj hang
      rw [unwrap_length]
      simpa [exSquare] using hal
    have u0 : (unwrap exClosest.wrap raw)[0]? = some p.yaw := by
      rw [py, List.getD_eq_getElem?_getD, List.getElem?_eq_getElem (by omega)]; rfl
    have u3 : (unwrap exClosest.wrap raw)[3]? = some q.yaw := by
      rw [qy, List.getD_eq_getElem?_getD, List.getElem?_eq_getElem (by omega)]; rfl
    obtain ⟨-, h1, -⟩ := C60_towards_next exClosest_wraps true _ raw e 0 (0, 0) (10, 0) _ rfl rfl u0
    obtain ⟨-, h2, -⟩ := C60_towards_next exClosest_wraps true _ raw e 3 (0, 10) (0, 0) _ rfl rfl u3
    intro he
    rw [← he] at h2
    norm_num at h1 h2
    rw [h2] at h1
    norm_num at h1
  · rw [e] at hr; cases hr
  · rw [e] at hr; cases hr

/-- C269: the guess for the mirror image of the square is the mirror image of the guess, travelled anticlockwise. -/
example : ∃ guess dir turns, startGuess exClosest .flat true 100 exOuter exInner exSquare = .ok (guess, dir) ∧
    startGuess exClosest .flat true 100 (mirrorLine exInner) (mirrorLine exOuter) exSquare.mirrored
      = .ok (guess.map (mirrorTrack turns), -dir) := by
  obtain ⟨ang, guess, dir, hg, -⟩ := startGuess_ok exClosest .flat true 100 exOuter exInner exSquare exSquare_usable
  obtain ⟨turns, h⟩ := C269_guess exClosest exSearch_closest exClosest_wraps true 100 exOuter exInner (by simp [exOuter])
    (by simp [exInner]) exSquare exSquare_usable exSquare_apart exSquare_forward guess dir hg fun _ => exSquare_headings guess dir hg
  exact ⟨guess, dir, turns, hg, h⟩

end Verif.Fit
