import Verif.Lemmas.ArcsTrack

/-! Property theorems C38, C39, C40, C70, C71, C72, C76: tracks made of straights and corners. -/

set_option autoImplicit false

namespace Verif.Arcs

/-! ### C38 -/

/-- On a track built from sensible straights and corners, the position is differentiable along the
whole track with derivative the tangent, the tangent is continuous, and it has unit length: position and
direction fit from one segment to the next, and `s` is the arclength. -/
theorem C38_smooth (scale width : ℝ) (closed : Bool) (nodes : List Node) (t : Track)
    (h : build scale width closed nodes = .ok t)
    (hs : ∀ node ∈ nodes.dropLast, Sensible scale node) :
    ∃ P : ℝ → Point, (∀ s, at' t s = .ok (P s)) ∧
      (∀ s, HasDerivAt (fun s => (P s).r) (P s).dr s) ∧
      Continuous (fun s => (P s).dr) ∧
      (∀ s, (P s).dr.1 ^ 2 + (P s).dr.2 ^ 2 = 1) := by
  obtain ⟨g, rest, e, hl, -⟩ := build_linked h hs
  obtain ⟨h1, h2, h3⟩ := linked_smooth rest g hl
  refine ⟨fun s => onSeg (locate s g rest) s, fun s => by simp [at', e], h1, h2, fun s => ?_⟩
  have : IsUnitVec _ := h3 s
  simp only [IsUnitVec] at this
  rw [sq, sq]; exact this

/-- A straight, a left corner, a right corner and a final straight. -/
noncomputable def exNodes : List Node :=
  [.straight 10, .corner true 5 1, .corner false 20 (1 / 2), .straight 30]

theorem exNodes_sensible : ∀ node ∈ exNodes.dropLast, Sensible 1 node := by
  simp [exNodes, Sensible]; norm_num

theorem exNodes_built : ∃ t, build 1 8 false exNodes = .ok t := by
  simp [build, buildFrom, exNodes, advance]

example : ∃ t, ∃ P : ℝ → Point, build 1 8 false exNodes = .ok t ∧ (∀ s, at' t s = .ok (P s)) ∧
    ∀ s, HasDerivAt (fun s => (P s).r) (P s).dr s := by
  obtain ⟨t, ht⟩ := exNodes_built
  obtain ⟨P, h1, h2, -⟩ := C38_smooth 1 8 false exNodes t ht exNodes_sensible
  exact ⟨t, P, ht, h1, h2⟩

/-! ### C39 -/

/-- Segment `i` starts at the sum of the declared lengths of the segments before it; the total length is
the sum of all of them, except that the last straight of a closed track is as long as the distance from
its start to the start of the track; the limits are half the scaled width. -/
theorem C39_lengths (scale width : ℝ) (closed : Bool) (nodes : List Node) (t : Track)
    (h : build scale width closed nodes = .ok t) :
    t.segs.length = nodes.length ∧ t.w = scale * width / 2 ∧
    (∀ (i : Nat) (g : Seg), t.segs[i]? = some g →
      g.s = ((nodes.take i).map (declaredLength scale)).sum) ∧
    (∀ node g, nodes.getLast? = some node → t.segs.getLast? = some g →
      ((closed = false ∨ ∀ L, node ≠ .straight L) →
        t.total = (nodes.map (declaredLength scale)).sum) ∧
      (∀ L, closed = true → node = .straight L →
        t.total = (nodes.dropLast.map (declaredLength scale)).sum +
          Real.sqrt (g.point.1 ^ 2 + g.point.2 ^ 2))) := by
  obtain ⟨r, hr, rfl⟩ := build_eq h
  obtain ⟨h1, h2, -, -, g, node, h5, h6, h7⟩ := buildFrom_table nodes _ _ _ r hr
  refine ⟨h1, by dsimp only; ring, fun i g hg => by simpa using h2 i g hg, ?_⟩
  intro node' g' hn hg
  dsimp only at hg ⊢
  rw [h5] at hg; rw [h6] at hn
  simp only [Option.some.injEq] at hg hn
  subst hg; subst hn
  have hsplit : nodes = nodes.dropLast ++ [node] := by
    have hne : nodes ≠ [] := by intro e; rw [e] at h6; simp at h6
    have := List.dropLast_concat_getLast hne
    rw [List.getLast?_eq_some_getLast hne] at h6
    simp only [Option.some.injEq] at h6
    rw [h6] at this
    exact this.symm
  constructor
  · intro hc
    rw [h7]
    conv_rhs => rw [hsplit, List.map_append, List.sum_append]
    congr 1
    cases node with
    | other => simp [lastSeg, declaredLength]
    | corner left R θ => simp [lastSeg, declaredLength]
    | straight L =>
      rcases hc with hc | hc
      · simp [lastSeg, declaredLength, hc]
      · exact absurd rfl (hc L)
  · intro L hc e
    subst e
    rw [h7]
    simp [lastSeg, hc, enorm, sq]

/-- The track passes through the start point of each segment at the start of the segment. -/
theorem C39_passes_through_starts (scale width : ℝ) (closed : Bool) (nodes : List Node) (t : Track)
    (h : build scale width closed nodes = .ok t)
    (hs : ∀ node ∈ nodes.dropLast, Sensible scale node) (g : Seg) (hg : g ∈ t.segs) :
    ∃ q, at' t g.s = .ok q ∧ q.r = g.point ∧ q.dr = g.dir := by
  obtain ⟨g0, rest, e, hl, -⟩ := build_linked h hs
  have key : ∀ (rest : List Seg) (g0 : Seg), Linked g0 rest → g ∈ g0 :: rest →
      locate g.s g0 rest = g ∧ IsUnitVec g.dir ∧ g0.s ≤ g.s := by
    intro rest
    induction rest with
    | nil =>
      intro g0 hl hm
      simp only [List.mem_singleton] at hm
      subst hm; exact ⟨rfl, hl, le_rfl⟩
    | cons b rest ih =>
      intro g0 hl hm
      rcases List.mem_cons.1 hm with rfl | hm
      · exact ⟨locate_head hl le_rfl, hl.unit, le_rfl⟩
      · obtain ⟨h1, h2, h3⟩ := ih b hl.2.2.2.2 hm
        refine ⟨?_, h2, le_trans hl.2.1.le h3⟩
        simp only [locate]
        rw [if_neg (not_lt.2 h3), h1]
  obtain ⟨h1, h2, -⟩ := key rest g0 hl (e ▸ hg)
  refine ⟨onSeg g g.s, by simp [at', e, h1], (onSeg_start h2).1, (onSeg_start h2).2⟩

example : ∃ t, build 1 8 false exNodes = .ok t ∧ t.total = 55 := by
  obtain ⟨t, ht⟩ := exNodes_built
  refine ⟨t, ht, ?_⟩
  obtain ⟨h1, -, -, h⟩ := C39_lengths 1 8 false exNodes t ht
  have hne : t.segs ≠ [] := by intro e; rw [e] at h1; simp [exNodes] at h1
  rw [(h (.straight 30) _ (by simp [exNodes]) (List.getLast?_eq_some_getLast hne)).1 (.inl rfl)]
  norm_num [exNodes, declaredLength]

/-! ### C40 -/

/-- A node that is neither a straight nor a corner makes the constructor throw, unless it is the last
node. Partial: an unknown last node is accepted (`C40_false`). -/
theorem C40_unknown_rejected_partial (scale width : ℝ) (closed : Bool) (nodes : List Node)
    (h : Node.other ∈ nodes.dropLast) : build scale width closed nodes = .throw := by
  have key : ∀ (nodes : List Node) (p d : Vec) (s : ℝ), Node.other ∈ nodes.dropLast →
      buildFrom scale closed (0, 0) p d s nodes = .throw := by
    intro nodes
    induction nodes with
    | nil => intro p d s h; simp at h
    | cons node rest ih =>
      intro p d s h
      cases rest with
      | nil => simp at h
      | cons node2 rest =>
        simp only [List.dropLast_cons_cons, List.mem_cons] at h
        simp only [buildFrom]
        rcases h with h | h
        · subst h; rfl
        · have := fun p d s => ih p d s h
          cases node with
          | other => rfl
          | straight L => simp only [advance, Res.bind_ok, this, Res.bind_throw]
          | corner left R θ => simp only [advance, Res.bind_ok, this, Res.bind_throw]
  rw [build, key nodes _ _ _ h]; rfl

example : build 1 8 false [.straight 1, .other, .straight 2] = .throw :=
  C40_unknown_rejected_partial 1 8 false _ (by simp)

/-- Conversely, with only straights and corners the constructor succeeds (one node at least). -/
theorem C40_known_accepted (scale width : ℝ) (closed : Bool) (nodes : List Node) (hne : nodes ≠ [])
    (h : Node.other ∉ nodes.dropLast) : ∃ t, build scale width closed nodes = .ok t := by
  have key : ∀ (nodes : List Node) (p d : Vec) (s : ℝ), nodes ≠ [] → Node.other ∉ nodes.dropLast →
      ∃ r, buildFrom scale closed (0, 0) p d s nodes = .ok r := by
    intro nodes
    induction nodes with
    | nil => intro p d s h; exact absurd rfl h
    | cons node rest ih =>
      intro p d s _ h
      cases rest with
      | nil => exact ⟨_, rfl⟩
      | cons node2 rest =>
        simp only [List.dropLast_cons_cons, List.mem_cons, not_or] at h
        simp only [buildFrom]
        cases node with
        | other => exact absurd rfl h.1
        | straight L =>
          simp only [advance, Res.bind_ok]
          obtain ⟨r, hr⟩ := ih (p + (scale * L) • d) d (s + scale * L) (by simp) h.2
          rw [hr]; exact ⟨_, rfl⟩
        | corner left R θ =>
          simp only [advance, Res.bind_ok]
          obtain ⟨r, hr⟩ := ih _ _ _ (by simp) h.2
          rw [hr]; exact ⟨_, rfl⟩
  obtain ⟨r, hr⟩ := key nodes _ _ _ hne h
  exact ⟨_, by rw [build, hr]; rfl⟩

/-- An unknown last node is silently accepted with no length. -/
theorem C40_false : ∃ t, build 1 8 false [.straight 10, .other] = .ok t ∧ t.total = 10 := by
  refine ⟨_, rfl, ?_⟩
  simp [lastSeg]

/-! ### C70: a closed track ends where it starts -/

/-- A closed track ending in a straight returns to its start provided the last straight points there.
Partial: nothing checks that it does (`C70_false`). -/
theorem C70_closes_partial (scale width : ℝ) (nodes : List Node) (t : Track)
    (h : build scale width true nodes = .ok t)
    (hs : ∀ node ∈ nodes.dropLast, Sensible scale node) (L : ℝ)
    (hlast : nodes.getLast? = some (.straight L)) (g : Seg) (hg : t.segs.getLast? = some g)
    (hpoints : ∃ c : ℝ, 0 ≤ c ∧ g.point + c • g.dir = (0, 0)) :
    ∃ q, at' t t.total = .ok q ∧ q.r = (0, 0) := by
  obtain ⟨g0, rest, e, hl, -⟩ := build_linked h hs
  have htot := ((C39_lengths scale width true nodes t h).2.2.2 _ g hlast hg).2 L rfl rfl
  have hlen := (C39_lengths scale width true nodes t h).1
  have hne : t.segs ≠ [] := by rw [e]; simp
  have hgs : g.s = (nodes.dropLast.map (declaredLength scale)).sum := by
    rw [List.getLast?_eq_getElem?] at hg
    rw [(C39_lengths scale width true nodes t h).2.2.1 _ g hg, hlen, List.dropLast_eq_take]
  have hk : g.k = 0 := by
    obtain ⟨r, hr, rfl⟩ := build_eq h
    have := (buildFrom_table nodes _ _ _ r hr).2.2.1
    rw [List.getLast?_eq_getElem?] at hg hlast
    rw [← hlen] at hlast
    exact this _ g _ hg hlast
  have hu := locate_last rest g0 hl (e ▸ hg)
  obtain ⟨c, hc, hpc⟩ := hpoints
  have hdist : Real.sqrt (g.point.1 ^ 2 + g.point.2 ^ 2) = c := by
    have h1 : g.point.1 = -(c * g.dir.1) := by
      have := congrArg Prod.fst hpc; simp at this; linarith
    have h2 : g.point.2 = -(c * g.dir.2) := by
      have := congrArg Prod.snd hpc; simp at this; linarith
    have hu' : g.dir.1 * g.dir.1 + g.dir.2 * g.dir.2 = 1 := hu.1
    have : g.point.1 ^ 2 + g.point.2 ^ 2 = c ^ 2 := by
      rw [h1, h2]; linear_combination c ^ 2 * hu'
    rw [this, Real.sqrt_sq hc]
  have htot' : t.total = g.s + c := by rw [htot, hgs, hdist]
  refine ⟨onSeg g t.total, ?_, ?_⟩
  · have : locate t.total g0 rest = g := hu.2 _ (by rw [htot']; linarith)
    simp [at', e, this]
  · have hk' : |g.k| < 1 / 10 ^ 10 := by rw [hk, abs_zero]; positivity
    rw [onSeg_straight hk', htot']
    simpa using hpc

/-- Two half turns joined by straights. -/
noncomputable def exStadium : List Node :=
  [.straight 10, .corner false 5 Real.pi, .straight 10, .corner false 5 Real.pi, .straight 7]

theorem exStadium_last : ∃ t g, build 1 8 true exStadium = .ok t ∧ t.segs.getLast? = some g ∧
    g.point + (0 : ℝ) • g.dir = (0, 0) := by
  have e1 : enorm (1, 0) = 1 := by simp [enorm]
  have h5 : enorm (0, -5) = 5 := by
    rw [enorm]; norm_num
    rw [show (25 : ℝ) = 5 ^ 2 by norm_num]; exact Real.sqrt_sq (by norm_num)
  have h5' : enorm (0, 5) = 5 := by
    rw [enorm]; norm_num
    rw [show (25 : ℝ) = 5 ^ 2 by norm_num]; exact Real.sqrt_sq (by norm_num)
  have e1' : enorm (-1, 0) = 1 := by simp [enorm]
  refine ⟨_, _, rfl, rfl, ?_⟩
  norm_num [curvatureOf, e1, e1', h5, h5']

example : ∃ t q, build 1 8 true exStadium = .ok t ∧ at' t t.total = .ok q ∧ q.r = (0, 0) := by
  obtain ⟨t, g, h1, h2, h3⟩ := exStadium_last
  obtain ⟨q, h4, h5⟩ := C70_closes_partial 1 8 exStadium t h1
    (by
      simp [exStadium, Sensible]; norm_num; exact Real.pi_pos) 7 (by simp [exStadium]) g h2 ⟨0, le_rfl, h3⟩
  exact ⟨t, q, h1, h4, h5⟩

/-- A "closed" track of two straights in line: it ends 20 m from its start. -/
theorem C70_false : ∃ t q, build 1 8 true [.straight 10, .straight 10] = .ok t ∧
    at' t t.total = .ok q ∧ q.r = (20, 0) := by
  have h10 : enorm (10, 0) = 10 := by
    rw [enorm]; norm_num
    rw [show (100 : ℝ) = 10 ^ 2 by norm_num]; exact Real.sqrt_sq (by norm_num)
  refine ⟨_, _, rfl, rfl, ?_⟩
  norm_num [lastSeg, h10, locate, onSeg]

/-! ### C71: the curvature of the track -/

/-- On the piece of the track belonging to node `i`, the rate of rotation of the heading reported by
the track is the declared signed curvature (negative to the left), and the second derivative of the
position is that curvature times the tangent turned by a right angle. -/
theorem C71_curvature (scale width : ℝ) (closed : Bool) (nodes : List Node) (t : Track)
    (h : build scale width closed nodes = .ok t)
    (hs : ∀ node ∈ nodes, Sensible scale node) (i : Nat) (node : Node) (g : Seg)
    (hg : t.segs[i]? = some g) (hn : nodes[i]? = some node) (s : ℝ) (h1 : g.s ≤ s)
    (h2 : ∀ g', t.segs[i + 1]? = some g' → s < g'.s) :
    ∃ q, at' t s = .ok q ∧ yawRate q = declaredCurvature scale node ∧
      q.d2r = declaredCurvature scale node • ((-q.dr.2, q.dr.1) : Vec) := by
  obtain ⟨g0, rest, e, hl, -⟩ := build_linked h (fun n hn => hs n (List.dropLast_subset _ hn))
  have hk : g.k = declaredCurvature scale node := by
    obtain ⟨r, hr, rfl⟩ := build_eq h
    exact (buildFrom_table nodes _ _ _ r hr).2.2.1 i g node hg hn
  have hloc := locate_getElem h1 rest g0 i hl (e ▸ hg) (by rw [e] at h2; exact h2)
  refine ⟨onSeg g s, by simp [at', e, hloc.1], ?_⟩
  have hunit : (onSeg g s).dr.1 * (onSeg g s).dr.1 + (onSeg g s).dr.2 * (onSeg g s).dr.2 = 1 :=
    onSeg_unit hloc.2 s
  have hd2 : (onSeg g s).d2r = g.k • ((-(onSeg g s).dr.2, (onSeg g s).dr.1) : Vec) := by
    by_cases hk' : |g.k| < 1 / 10 ^ 10
    · have hz : g.k = 0 := by
        have hsn := hs node (List.mem_of_getElem? hn)
        cases node with
        | other => exact hsn.elim
        | straight L => exact hk
        | corner left R θ =>
          exfalso
          have habs : |g.k| = 1 / (scale * R) := by
            rw [hk]
            cases left
            · simp only [declaredCurvature]; exact abs_of_pos (one_div_pos.2 hsn.1)
            · simp only [declaredCurvature]; rw [abs_neg]; exact abs_of_pos (one_div_pos.2 hsn.1)
          rw [habs] at hk'
          exact absurd hk' (not_lt.2 (one_div_le_one_div_of_le hsn.1 hsn.2.1))
      rw [onSeg_straight hk', hz]; simp
    · exact (onSeg_curved hloc.2 hk' s).2.2.1
  refine ⟨?_, by rw [← hk]; exact hd2⟩
  rw [yawRate, hunit, div_one, hd2, ← hk]
  simp only [Prod.smul_mk, smul_eq_mul]
  linear_combination g.k * hunit

example : ∃ t q, build 1 8 false exNodes = .ok t ∧ at' t 12 = .ok q ∧ yawRate q = -(1 / 5) := by
  obtain ⟨t, ht⟩ := exNodes_built
  have hl := C39_lengths 1 8 false exNodes t ht
  have hlen : t.segs.length = 4 := by rw [hl.1]; simp [exNodes]
  have h1 : t.segs[1]? = some t.segs[1] := List.getElem?_eq_getElem (by omega)
  have h2 : t.segs[2]? = some t.segs[2] := List.getElem?_eq_getElem (by omega)
  have s1 := hl.2.2.1 1 _ h1
  have s2 := hl.2.2.1 2 _ h2
  norm_num [exNodes, declaredLength] at s1 s2
  obtain ⟨q, hq, hy, -⟩ := C71_curvature 1 8 false exNodes t ht
    (by simp [exNodes, Sensible]; norm_num) 1 (.corner true 5 1) _ h1 (by simp [exNodes]) 12
    (by rw [s1]; norm_num) (by intro g' hg'; rw [h2] at hg'; simp at hg'; rw [← hg', s2]; norm_num)
  exact ⟨t, q, ht, hq, by rw [hy]; norm_num [declaredCurvature]⟩

/-! ### C72: a line at lateral offset w(s) -/

/-- Along any line at lateral offset `w(s)` from the centreline, the second and third outputs of
`position_at` are the first and second derivative of the first one with respect to `s`, away from the
joints of the segments. -/
theorem C72_offset_line (scale width : ℝ) (closed : Bool) (nodes : List Node) (t : Track)
    (h : build scale width closed nodes = .ok t)
    (hs : ∀ node ∈ nodes.dropLast, Sensible scale node) :
    ∃ P : ℝ → Point, (∀ s, at' t s = .ok (P s)) ∧
      ∀ (w dw d2w : ℝ → ℝ) (s : ℝ), (∀ g ∈ t.segs, g.s ≠ s) →
        (∀ s, HasDerivAt w (dw s) s) → (∀ s, HasDerivAt dw (d2w s) s) →
        HasDerivAt (fun s => (positionAt (P s) (w s) (dw s) (d2w s)).1)
          (positionAt (P s) (w s) (dw s) (d2w s)).2.1 s ∧
        HasDerivAt (fun s => (positionAt (P s) (w s) (dw s) (d2w s)).2.1)
          (positionAt (P s) (w s) (dw s) (d2w s)).2.2 s := by
  obtain ⟨g0, rest, e, hl, -⟩ := build_linked h hs
  refine ⟨fun s => onSeg (locate s g0 rest) s, fun s => by simp [at', e], ?_⟩
  intro w dw d2w s hne hw hdw
  -- near `s` the located segment is constant
  have hloc : ∃ g, IsUnitVec g.dir ∧ ∀ᶠ x in nhds s, locate x g0 rest = g := by
    rw [e] at hne
    clear e
    induction rest generalizing g0 with
    | nil => exact ⟨g0, hl, Filter.Eventually.of_forall fun x => rfl⟩
    | cons b rest ih =>
      have hb := hne b (by simp)
      rcases lt_or_gt_of_ne hb with hlt | hgt
      · obtain ⟨g, hg, hev⟩ := ih b hl.2.2.2.2 (fun g hg => hne g (by
          rcases List.mem_cons.1 hg with rfl | hg
          · simp
          · simp [hg]))
        refine ⟨g, hg, ?_⟩
        filter_upwards [hev, Ioi_mem_nhds hlt] with x hx hx2
        simp only [locate]
        rw [if_neg (not_lt.2 (le_of_lt hx2)), hx]
      · refine ⟨g0, hl.unit, ?_⟩
        filter_upwards [Iio_mem_nhds hgt] with x hx
        simp only [locate]
        exact if_pos hx
  obtain ⟨g, hg, hev⟩ := hloc
  have hs0 : locate s g0 rest = g := hev.self_of_nhds
  obtain ⟨h1, h2, h3⟩ := onSeg_deriv hg s
  have hperp : ∀ (f : ℝ → Vec) (f' : Vec), HasDerivAt f f' s →
      HasDerivAt (fun x => ((-(f x).2, (f x).1) : Vec)) (-f'.2, f'.1) s := by
    intro f f' hf
    have h1 : HasDerivAt (fun x => (f x).1) f'.1 s :=
      (hasFDerivAt_fst (𝕜 := ℝ) (p := f s)).comp_hasDerivAt s hf
    have h2 : HasDerivAt (fun x => (f x).2) f'.2 s :=
      (hasFDerivAt_snd (𝕜 := ℝ) (p := f s)).comp_hasDerivAt s hf
    exact h2.neg.prodMk h1
  have hn1 := hperp _ _ h2
  have hn2 := hperp _ _ h3
  dsimp only
  rw [hs0]
  constructor
  · have hd : HasDerivAt (fun x => (onSeg g x).r + w x • ((-(onSeg g x).dr.2, (onSeg g x).dr.1) : Vec))
        (positionAt (onSeg g s) (w s) (dw s) (d2w s)).2.1 s := by
      refine (h1.add ((hw s).smul hn1)).congr_deriv ?_
      simp only [positionAt]
      abel
    refine hd.congr_of_eventuallyEq ?_
    filter_upwards [hev] with x hx
    rw [hx]; rfl
  · have hd : HasDerivAt (fun x => (onSeg g x).dr
          + w x • ((-(onSeg g x).d2r.2, (onSeg g x).d2r.1) : Vec)
          + dw x • ((-(onSeg g x).dr.2, (onSeg g x).dr.1) : Vec))
        (positionAt (onSeg g s) (w s) (dw s) (d2w s)).2.2 s := by
      refine ((h2.add ((hw s).smul hn2)).add ((hdw s).smul hn1)).congr_deriv ?_
      simp only [positionAt, two_mul, add_smul]
      abel
    refine hd.congr_of_eventuallyEq ?_
    filter_upwards [hev] with x hx
    rw [hx]; rfl

example : ∃ t, ∃ P : ℝ → Point, build 1 8 false exNodes = .ok t ∧ (∀ s, at' t s = .ok (P s)) ∧
    HasDerivAt (fun s => (positionAt (P s) (s ^ 2) (2 * s) 2).1)
      (positionAt (P 5) (5 ^ 2) (2 * 5) 2).2.1 5 := by
  obtain ⟨t, ht⟩ := exNodes_built
  obtain ⟨P, h1, h2⟩ := C72_offset_line 1 8 false exNodes t ht exNodes_sensible
  refine ⟨t, P, ht, h1, (h2 (fun s => s ^ 2) (fun s => 2 * s) (fun _ => 2) 5 ?_ ?_ ?_).1⟩
  · intro g hg
    obtain ⟨i, hi⟩ := List.getElem?_of_mem hg
    have hl := C39_lengths 1 8 false exNodes t ht
    have hs := hl.2.2.1 i g hi
    have hi4 : i < 4 := by
      have := (List.getElem?_eq_some_iff.1 hi).1
      rw [hl.1] at this; simpa [exNodes] using this
    rw [hs]
    match i, hi4 with
    | 0, _ => norm_num
    | 1, _ => norm_num [exNodes, declaredLength]
    | 2, _ => norm_num [exNodes, declaredLength]
    | 3, _ => norm_num [exNodes, declaredLength]
  · intro s; simpa using hasDerivAt_pow 2 s
  · intro s; simpa using (hasDerivAt_id s).const_mul 2

/-! ### C76 -/

/-- A default-constructed track cannot be evaluated: every arclength is rejected with an exception. A
track built from any nodes, sensible or not, can be evaluated at every arclength. -/
theorem C76_evaluation_defined (s : ℝ) :
    at' defaultTrack s = .throw ∧
    ∀ (scale width : ℝ) (closed : Bool) (nodes : List Node) (t : Track),
      build scale width closed nodes = .ok t → ∃ q, at' t s = .ok q := by
  refine ⟨by simp [at', defaultTrack], fun scale width closed nodes t h => ?_⟩
  obtain ⟨r, hr, rfl⟩ := build_eq h
  have hne : r.1 ≠ [] := by
    match nodes, hr with
    | [], hr => simp [buildFrom] at hr
    | [n], hr =>
      simp only [buildFrom] at hr
      cases hr
      simp
    | n :: m :: rest, hr =>
      simp only [buildFrom] at hr
      obtain ⟨x, -, hr⟩ := Res.bind_eq_ok.1 hr
      obtain ⟨y, -, hr⟩ := Res.bind_eq_ok.1 hr
      cases hr
      simp
  match hr1 : r.1, hne with
  | g :: rest, _ => exact ⟨onSeg (locate s g rest) s, by simp [at']⟩

example : ∃ t q, build 1 8 false exNodes = .ok t ∧ at' t 1000 = .ok q := by
  obtain ⟨t, ht⟩ := exNodes_built
  obtain ⟨q, hq⟩ := (C76_evaluation_defined 1000).2 1 8 false exNodes t ht
  exact ⟨t, q, ht, hq⟩

end Verif.Arcs
