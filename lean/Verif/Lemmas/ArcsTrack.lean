import Verif.Spec.Arcs
import Verif.Lemmas.Arcs

/-! Lemmas about the whole list of segments of a track made of arcs. -/

set_option autoImplicit false

namespace Verif.Arcs

/-- Consecutive segments fit. -/
def Linked : Seg → List Seg → Prop
  | g, [] => IsUnitVec g.dir
  | g, h :: rest => IsUnitVec g.dir ∧ g.s < h.s ∧ h.point = (onSeg g h.s).r ∧
      h.dir = (onSeg g h.s).dr ∧ Linked h rest

theorem Linked.unit {g : Seg} {rest : List Seg} (h : Linked g rest) : IsUnitVec g.dir := by
  cases rest with
  | nil => exact h
  | cons b rest => exact h.1

theorem advance_length {scale : ℝ} {p d : Vec} {node : Node} {a : ℝ × Vec × Vec × ℝ}
    (h : advance scale p d node = .ok a) :
    a.2.2.2 = declaredLength scale node ∧ a.1 = declaredCurvature scale node ∧ node ≠ .other := by
  cases node with
  | other => simp [advance] at h
  | straight L => simp only [advance, Res.ok.injEq] at h; subst h; simp [declaredLength, declaredCurvature]
  | corner left R θ =>
    simp only [advance, Res.ok.injEq] at h; subst h
    cases left <;> simp [declaredLength, declaredCurvature, curvatureOf]

theorem sensible_length {scale : ℝ} {node : Node} (h : Sensible scale node) :
    0 < declaredLength scale node := by
  cases node with
  | other => exact h.elim
  | straight L => exact h
  | corner left R θ => exact mul_pos h.1 h.2.2

theorem buildFrom_linked {scale : ℝ} {closed : Bool} {first : Vec} :
    ∀ (nodes : List Node) (p d : Vec) (s : ℝ) (r : List Seg × ℝ),
      buildFrom scale closed first p d s nodes = .ok r → IsUnitVec d →
      (∀ node ∈ nodes.dropLast, Sensible scale node) →
      ∃ g rest, r.1 = g :: rest ∧ g.point = p ∧ g.dir = d ∧ g.s = s ∧ Linked g rest := by
  intro nodes
  induction nodes with
  | nil => intro p d s r h; simp [buildFrom] at h
  | cons node rest ih =>
    intro p d s r h hu hs
    cases rest with
    | nil =>
      simp only [buildFrom, Res.ok.injEq] at h
      subst h
      exact ⟨_, [], rfl, rfl, rfl, rfl, hu⟩
    | cons node2 rest =>
      simp only [buildFrom] at h
      obtain ⟨a, ha, h⟩ := Res.bind_eq_ok.1 h
      obtain ⟨r2, hr2, h⟩ := Res.bind_eq_ok.1 h
      simp only [Res.ok.injEq] at h
      subst h
      have hsens : Sensible scale node := hs node (by simp)
      obtain ⟨hL, hk, -⟩ := advance_length ha
      obtain ⟨k, p', d', L⟩ := a
      dsimp only at hL hk hr2 ⊢
      have hpos : 0 < L := hL ▸ sensible_length hsens
      obtain ⟨e1, e2, hu'⟩ := advance_onSeg hu (by
        intro left R θ e; rw [e] at hsens; exact ⟨hsens.1, hsens.2.1⟩) ha s
      obtain ⟨g, rest', e3, e4, e5, e6, hl⟩ := ih p' d' (s + L) r2 hr2 hu'
        (fun n hn => hs n (by simp only [List.dropLast_cons_cons, List.mem_cons]; exact .inr hn))
      refine ⟨⟨p, d, s, k⟩, r2.1, rfl, rfl, rfl, rfl, ?_⟩
      rw [e3]
      refine ⟨hu, by rw [e6]; simpa using hpos, ?_, ?_, hl⟩
      · rw [e4, e6, e1]
      · rw [e5, e6, e2]

theorem buildFrom_table {scale : ℝ} {closed : Bool} {first : Vec} :
    ∀ (nodes : List Node) (p d : Vec) (s : ℝ) (r : List Seg × ℝ),
      buildFrom scale closed first p d s nodes = .ok r →
      r.1.length = nodes.length ∧
      (∀ (i : Nat) (g : Seg), r.1[i]? = some g →
        g.s = s + ((nodes.take i).map (declaredLength scale)).sum) ∧
      (∀ (i : Nat) (g : Seg) (node : Node), r.1[i]? = some g → nodes[i]? = some node →
        g.k = declaredCurvature scale node) ∧
      (∀ node ∈ nodes.dropLast, node ≠ .other) ∧
      ∃ g node, r.1.getLast? = some g ∧ nodes.getLast? = some node ∧
        r.2 = (nodes.dropLast.map (declaredLength scale)).sum +
          (lastSeg scale closed first g.point node).2 := by
  intro nodes
  induction nodes with
  | nil => intro p d s r h; simp [buildFrom] at h
  | cons node rest ih =>
    intro p d s r h
    cases rest with
    | nil =>
      simp only [buildFrom, Res.ok.injEq] at h
      subst h
      refine ⟨rfl, ?_, ?_, by simp, ⟨p, d, s, (lastSeg scale closed first p node).1⟩, node, rfl, rfl, by simp⟩
      · intro i g hg
        cases i with
        | zero => simp at hg; rw [← hg]; simp
        | succ i => simp at hg
      · intro i g n hg hn
        cases i with
        | zero =>
          simp at hg hn; rw [← hg, ← hn]
          cases node with
          | other => rfl
          | straight L => rfl
          | corner left R θ => cases left <;> simp [lastSeg, declaredCurvature, curvatureOf]
        | succ i => simp at hg
    | cons node2 rest =>
      simp only [buildFrom] at h
      obtain ⟨a, ha, h⟩ := Res.bind_eq_ok.1 h
      obtain ⟨r2, hr2, h⟩ := Res.bind_eq_ok.1 h
      simp only [Res.ok.injEq] at h
      subst h
      obtain ⟨hL, hk, hno⟩ := advance_length ha
      obtain ⟨h1, h2, h3, h4, g, nd, h5, h6, h7⟩ := ih _ _ _ r2 hr2
      refine ⟨by simp [h1], ?_, ?_, ?_, g, nd, ?_, by simpa using h6, ?_⟩
      · intro i g hg
        cases i with
        | zero => simp at hg; rw [← hg]; simp
        | succ i =>
          rw [h2 i g (by simpa using hg), hL]
          simp [add_assoc]
      · intro i g n hg hn
        cases i with
        | zero => simp at hg hn; rw [← hg, ← hn]; exact hk
        | succ i => exact h3 i g n (by simpa using hg) (by simpa using hn)
      · intro n hn
        rw [List.dropLast_cons_cons, List.mem_cons] at hn
        rcases hn with rfl | hn
        · exact hno
        · exact h4 n hn
      · have : r2.1 ≠ [] := by intro e; rw [e] at h1; simp at h1
        obtain ⟨x, xs, e⟩ := List.exists_cons_of_ne_nil this
        rw [e] at h5 ⊢
        rw [List.getLast?_cons_cons]; exact h5
      · rw [h7, hL]
        simp [add_assoc]

theorem build_eq {scale width : ℝ} {closed : Bool} {nodes : List Node} {t : Track}
    (h : build scale width closed nodes = .ok t) :
    ∃ r, buildFrom scale closed (0, 0) (0, 0) (1, 0) 0 nodes = .ok r ∧
      t = ⟨r.1, r.2, 1 / 2 * scale * width⟩ := by
  obtain ⟨r, hr, h⟩ := Res.bind_eq_ok.1 h
  simp only [Res.ok.injEq] at h
  exact ⟨r, hr, h.symm⟩

theorem build_linked {scale width : ℝ} {closed : Bool} {nodes : List Node} {t : Track}
    (h : build scale width closed nodes = .ok t)
    (hs : ∀ node ∈ nodes.dropLast, Sensible scale node) :
    ∃ g rest, t.segs = g :: rest ∧ Linked g rest ∧ g.point = (0, 0) ∧ g.s = 0 := by
  obtain ⟨r, hr, rfl⟩ := build_eq h
  obtain ⟨g, rest, e, e1, -, e3, hl⟩ := buildFrom_linked nodes _ _ _ r hr
    (by simp [IsUnitVec]) hs
  exact ⟨g, rest, e, hl, e1, e3⟩


theorem onSeg_continuous {g : Seg} (hu : IsUnitVec g.dir) :
    Continuous (fun s => (onSeg g s).dr) :=
  continuous_iff_continuousAt.2 fun s => (onSeg_deriv hu s).2.1.continuousAt

theorem locate_head {s : ℝ} : ∀ {g : Seg} {rest : List Seg}, Linked g rest → s ≤ g.s →
    locate s g rest = g := by
  intro g rest h hs
  cases rest with
  | nil => rfl
  | cons b rest => simp [locate, lt_of_le_of_lt hs h.2.1]

theorem linked_smooth (rest : List Seg) : ∀ g : Seg, Linked g rest →
    (∀ s, HasDerivAt (fun s => (onSeg (locate s g rest) s).r) (onSeg (locate s g rest) s).dr s) ∧
    Continuous (fun s => (onSeg (locate s g rest) s).dr) ∧
    (∀ s, IsUnitVec (onSeg (locate s g rest) s).dr) := by
  induction rest with
  | nil =>
    intro g h
    simp only [locate]
    exact ⟨fun s => (onSeg_deriv h s).1, onSeg_continuous h, fun s => onSeg_unit h s⟩
  | cons b rest ih =>
    intro g h
    obtain ⟨hu, hlt, e1, e2, hl⟩ := h
    obtain ⟨ih1, ih2, ih3⟩ := ih b hl
    have hb := onSeg_start hl.unit
    have hloc : locate b.s b rest = b := locate_head hl le_rfl
    have ef : (fun s => (onSeg (locate s g (b :: rest)) s).r) =
        fun s => if s < b.s then (onSeg g s).r else (onSeg (locate s b rest) s).r := by
      funext s; simp only [locate]; split <;> rfl
    have ed : (fun s => (onSeg (locate s g (b :: rest)) s).dr) =
        fun s => if s < b.s then (onSeg g s).dr else (onSeg (locate s b rest) s).dr := by
      funext s; simp only [locate]; split <;> rfl
    refine ⟨?_, ?_, ?_⟩
    · intro s
      rw [ef]
      rcases lt_trichotomy s b.s with hs | hs | hs
      · have : (onSeg (locate s g (b :: rest)) s).dr = (onSeg g s).dr := by simp [locate, hs]
        rw [this]
        refine (onSeg_deriv hu s).1.congr_of_eventuallyEq ?_
        filter_upwards [Iio_mem_nhds hs] with x hx
        exact if_pos hx
      · subst hs
        have : (onSeg (locate b.s g (b :: rest)) b.s).dr = (onSeg g b.s).dr := by
          simp only [locate, lt_irrefl, if_false, hloc]
          rw [hb.2, e2]
        rw [this]
        refine hasDerivAt_glue (onSeg_deriv hu _).1 ?_ ?_
        · have := ih1 b.s
          rw [hloc, hb.2, e2] at this
          exact this
        · rw [hloc, hb.1, e1]
      · have : (onSeg (locate s g (b :: rest)) s).dr = (onSeg (locate s b rest) s).dr := by
          simp [locate, not_lt.2 hs.le]
        rw [this]
        refine (ih1 s).congr_of_eventuallyEq ?_
        filter_upwards [Ioi_mem_nhds hs] with x hx
        exact if_neg (not_lt.2 (le_of_lt hx))
    · rw [ed]
      have : (fun s => if s < b.s then (onSeg g s).dr else (onSeg (locate s b rest) s).dr) =
          fun s => if b.s ≤ s then (onSeg (locate s b rest) s).dr else (onSeg g s).dr := by
        funext s
        by_cases hs : s < b.s
        · rw [if_pos hs, if_neg (not_le.2 hs)]
        · rw [if_neg hs, if_pos (not_lt.1 hs)]
      rw [this]
      refine Continuous.if_le ih2 (onSeg_continuous hu) continuous_const continuous_id ?_
      intro s hs
      have hs : b.s = s := hs
      rw [← hs, hloc, hb.2, e2]
    · intro s
      simp only [locate]
      split
      · exact onSeg_unit hu s
      · exact ih3 s

theorem Linked.le {g : Seg} : ∀ (rest : List Seg) (b : Seg), Linked b rest → g ∈ b :: rest →
    b.s ≤ g.s := by
  intro rest
  induction rest with
  | nil => intro b _ hm; simp at hm; rw [hm]
  | cons c rest ih =>
    intro b hl hm
    rcases List.mem_cons.1 hm with rfl | hm
    · exact le_rfl
    · exact le_trans hl.2.1.le (ih c hl.2.2.2.2 hm)

theorem locate_last {g : Seg} : ∀ (rest : List Seg) (g0 : Seg), Linked g0 rest →
    (g0 :: rest).getLast? = some g → IsUnitVec g.dir ∧ ∀ s, g.s ≤ s → locate s g0 rest = g := by
  intro rest
  induction rest with
  | nil => intro g0 hl hg; simp at hg; subst hg; exact ⟨hl, fun s _ => rfl⟩
  | cons b rest ih =>
    intro g0 hl hg
    rw [List.getLast?_cons_cons] at hg
    obtain ⟨h1, h2⟩ := ih b hl.2.2.2.2 hg
    refine ⟨h1, fun s hs => ?_⟩
    have hbs : b.s ≤ g.s := Linked.le rest b hl.2.2.2.2 (List.mem_of_getLast? hg)
    simp only [locate]
    rw [if_neg (not_lt.2 (le_trans hbs hs)), h2 s hs]

theorem locate_getElem {g : Seg} {s : ℝ} (h1 : g.s ≤ s) : ∀ (rest : List Seg) (g0 : Seg) (i : Nat),
    Linked g0 rest → (g0 :: rest)[i]? = some g →
    (∀ g', (g0 :: rest)[i + 1]? = some g' → s < g'.s) →
    locate s g0 rest = g ∧ IsUnitVec g.dir := by
  intro rest
  induction rest with
  | nil =>
    intro g0 i hl hg h2
    cases i with
    | zero => simp at hg; subst hg; exact ⟨rfl, hl⟩
    | succ i => simp at hg
  | cons b rest ih =>
    intro g0 i hl hg h2
    cases i with
    | zero =>
      simp at hg; subst hg
      refine ⟨?_, hl.unit⟩
      simp [locate, h2 b (by simp)]
    | succ i =>
      have hm : g ∈ b :: rest := List.mem_of_getElem? (by simpa using hg)
      have hbs : b.s ≤ g.s := Linked.le rest b hl.2.2.2.2 hm
      obtain ⟨h3, h4⟩ := ih b i hl.2.2.2.2 (by simpa using hg)
        (fun g' hg' => h2 g' (by simpa using hg'))
      refine ⟨?_, h4⟩
      simp only [locate]
      rw [if_neg (not_lt.2 (le_trans hbs h1)), h3]

end Verif.Arcs
