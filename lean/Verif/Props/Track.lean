import Verif.Lemmas.Track
import Verif.Props.Kerb
import Mathlib.Analysis.SpecialFunctions.Trigonometric.Deriv
import Mathlib.Tactic.NormNum
import Mathlib.Tactic.Tauto

/-! # The track built from a preprocessed circuit -/

set_option autoImplicit false

namespace Verif.Track

open Verif.Road (Vec3 TrackPoint)
open Verif.Preprocessor (Point)
open Verif.Kerbs (Kerb augment)

/-! ## C122: the track goes through the data -/

/-- C122. At the arclength of every point of the circuit the track has its position, heading and
curvature, and its pitch and roll (zero if the circuit was computed without elevation). -/
theorem C122_points (c : Circuit) (h : Meshed c) :
    ∃ T, build c = .ok T ∧
      ∀ (i : Nat) (a : ℝ) (p : Point ℝ), c.s[i]? = some a → c.pts[i]? = some p →
        ∃ f, T.at a = some f ∧ f.position = (p.x, p.y, p.z) ∧ f.yaw = p.yaw ∧ f.dyaw = p.yawDot ∧
          (c.withElevation = true → f.pitch = p.pitch ∧ f.roll = p.roll) ∧
          (c.withElevation = false → f.pitch = 0 ∧ f.roll = 0 ∧ f.dpitch = 0 ∧ f.droll = 0) := by
  obtain ⟨a0, b0, h1, h2, h3⟩ := build_eq c h
  refine ⟨_, h3, fun i a p ha hp => ?_⟩
  have hn := nodes_getElem c i a ha
  have hmem := List.mem_of_getElem? hn
  have hpts : c.pts ≠ [] := by rintro h'; rw [h'] at hp; simp at hp
  have hw : ∀ f : Point ℝ → ℝ, line c.nodes ((c.wrap c.pts).map f) a = some (f p) := fun f =>
    line_node _ _ i a (f p) (nodes_pairwise c h)
      (by rw [List.length_map, wrap_length c _ hpts, nodes_length, h.sizes]) (nodes_two c h) hn
      (by rw [List.getElem?_map, wrap_getElem c _ i p hp]; rfl)
  refine ⟨_, built_at c a0 b0 a (head_le _ (nodes_pairwise c h) _ _ h1 hmem)
    (le_last _ (nodes_pairwise c h) _ _ h2 hmem) (fun f => f p) hw, rfl, rfl, rfl, ?_, ?_⟩
  · intro he; simp [he]
  · intro he; simp [he]

/-- C122. At the arclength of every point the limits of the track are the distances found by the
preprocessor plus the width of the kerb there, if it is to be used (kerbs at least 2e-8 apart, and no
point within 1e-8 outside the end of a kerb), plus the correction. -/
theorem C122_limits (c : Circuit) (h : Meshed c)
    (hl : Kerbs.Separated (2 / 10 ^ 8) c.leftKerbs) (hr : Kerbs.Separated (2 / 10 ^ 8) c.rightKerbs)
    (hel : ∀ s ∈ c.s, ∀ k ∈ c.leftKerbs, (k.start - 1 / 10 ^ 8 < s ∧ s < k.finish + 1 / 10 ^ 8) →
      k.start ≤ s ∧ s ≤ k.finish)
    (her : ∀ s ∈ c.s, ∀ k ∈ c.rightKerbs, (k.start - 1 / 10 ^ 8 < s ∧ s < k.finish + 1 / 10 ^ 8) →
      k.start ≤ s ∧ s ≤ k.finish) :
    ∃ T, build c = .ok T ∧
      ∀ (i : Nat) (a : ℝ) (p : Point ℝ) (correction : ℝ), c.s[i]? = some a → c.pts[i]? = some p →
        T.leftLimit correction a = some (p.nl + Kerbs.evaluate false a c.leftKerbs + correction) ∧
        T.rightLimit correction a = some (p.nr + Kerbs.evaluate false a c.rightKerbs + correction) := by
  obtain ⟨a0, b0, h1, h2, h3⟩ := build_eq c h
  refine ⟨_, h3, fun i a p w ha hp => ?_⟩
  have hn := nodes_getElem c i a ha
  have key : ∀ (ks : List (Kerb ℝ)) (f : Point ℝ → ℝ),
      line c.nodes (widths ks c f) a = some (augment a (f p) ks) := by
    intro ks f
    have hz : (List.zipWith (fun s w => augment s w ks) c.s (c.pts.map f))[i]?
        = some (augment a (f p) ks) := by
      rw [List.getElem?_zipWith, ha, List.getElem?_map, hp]; rfl
    have hne : List.zipWith (fun s w => augment s w ks) c.s (c.pts.map f) ≠ [] := by
      intro h'; rw [h'] at hz; simp at hz
    exact line_node _ _ i a _ (nodes_pairwise c h)
      (by unfold widths; rw [wrap_length c _ hne, nodes_length, List.length_zipWith,
            List.length_map, h.sizes, min_self]) (nodes_two c h) hn (wrap_getElem c _ i _ hz)
  have hm := List.mem_of_getElem? ha
  constructor
  · simp only [Polys.leftLimit, built, key, Option.map_some]
    rw [Kerbs.augment_eq _ _ _ hl (hel a hm)]
  · simp only [Polys.rightLimit, built, key, Option.map_some]
    rw [Kerbs.augment_eq _ _ _ hr (her a hm)]

/-! ## C123: a closed track joins its end and its beginning -/

/-- C123. The end of a closed track is its beginning: position, angles, curvature and limits; its total
length is the length of the circuit. -/
theorem C123_closed (c : Circuit) (h : Meshed c) (hc : c.closed = true) :
    ∃ T a f l r, build c = .ok T ∧ c.s.head? = some a ∧ T.at a = some f ∧ T.at c.trackLength = some f ∧
      T.leftLimit 0 a = some l ∧ T.leftLimit 0 c.trackLength = some l ∧
      T.rightLimit 0 a = some r ∧ T.rightLimit 0 c.trackLength = some r ∧
      T.totalLength = some c.trackLength := by
  obtain ⟨a0, b0, h1, h2, h3⟩ := build_eq c h
  obtain ⟨s0, s, hs⟩ : ∃ s0 s, c.s = s0 :: s := by
    cases hs : c.s with
    | nil => have := h.elements; rw [hs, hc] at this; simp at this
    | cons s0 s => exact ⟨s0, s, rfl⟩
  obtain ⟨p0, p, hp⟩ : ∃ p0 p, c.pts = p0 :: p := by
    cases hp : c.pts with
    | nil => have := h.sizes; rw [hs, hp] at this; simp at this
    | cons p0 p => exact ⟨p0, p, rfl⟩
  have hlen : s.length = p.length := by have := h.sizes; rw [hs, hp] at this; simpa using this
  have hpw := nodes_pairwise c h
  have hn0 : c.nodes[0]? = some s0 := nodes_getElem c 0 s0 (by rw [hs]; rfl)
  have hnL : c.nodes[s.length + 1]? = some c.trackLength := by
    simp [Circuit.nodes, hc, hs]
  have hlast : c.nodes.getLast? = some c.trackLength := by simp [Circuit.nodes, hc]
  have hsz : ∀ {α : Type} (a : α) (l : List α), l.length = p.length →
      c.nodes.length = (c.wrap (a :: l)).length := by
    intro α a l hl
    rw [wrap_length c _ (by simp), nodes_length, hs]; simp [hc, hl, hlen]
  have k0 : ∀ (v0 : ℝ) (v : List ℝ), v.length = p.length →
      line c.nodes (c.wrap (v0 :: v)) s0 = some v0 := fun v0 v hv =>
    line_node _ _ 0 s0 v0 hpw (hsz v0 v hv) (nodes_two c h) hn0 (wrap_getElem c _ 0 v0 rfl)
  have kL : ∀ (v0 : ℝ) (v : List ℝ), v.length = p.length →
      line c.nodes (c.wrap (v0 :: v)) c.trackLength = some v0 := fun v0 v hv =>
    line_node _ _ (s.length + 1) _ v0 hpw (hsz v0 v hv) (nodes_two c h) hnL
      (by rw [hlen, ← hv]; exact wrap_end c hc v0 v)
  have m0 : s0 ∈ c.nodes := List.mem_of_getElem? hn0
  have mL : c.trackLength ∈ c.nodes := List.mem_of_getElem? hnL
  have w : ∀ (ks : List (Kerb ℝ)) (f : Point ℝ → ℝ), ∃ v0 v, v.length = p.length ∧
      widths ks c f = c.wrap (v0 :: v) := by
    intro ks f
    refine ⟨_, _, ?_, by unfold widths; rw [hs, hp]; rfl⟩
    simp [hlen]
  obtain ⟨l0, lv, hl1, hl2⟩ := w c.leftKerbs Point.nl
  obtain ⟨r0, rv, hr1, hr2⟩ := w c.rightKerbs Point.nr
  refine ⟨_, s0, _, l0, r0, h3, by rw [hs]; rfl,
    built_at c a0 b0 s0 (head_le _ hpw _ _ h1 m0) (le_last _ hpw _ _ h2 m0) (fun f => f p0) ?_,
    built_at c a0 b0 _ (head_le _ hpw _ _ h1 mL) (le_last _ hpw _ _ h2 mL) (fun f => f p0) ?_,
    ?_, ?_, ?_, ?_, hlast⟩
  · intro f; rw [wrap_map, hp]; exact k0 _ _ (by simp)
  · intro f; rw [wrap_map, hp]; exact kL _ _ (by simp)
  · simp only [Polys.leftLimit, built, hl2, k0 _ _ hl1, Option.map_some, add_zero]
  · simp only [Polys.leftLimit, built, hl2, kL _ _ hl1, Option.map_some, add_zero]
  · simp only [Polys.rightLimit, built, hr2, k0 _ _ hr1, Option.map_some, add_zero]
  · simp only [Polys.rightLimit, built, hr2, kL _ _ hr1, Option.map_some, add_zero]

/-- C123. An open track is as long as the arclength of its last point. -/
theorem C123_open (c : Circuit) (h : Meshed c) (hc : c.closed = false) :
    ∃ T, build c = .ok T ∧ T.totalLength = c.s.getLast? := by
  obtain ⟨a0, b0, h1, h2, h3⟩ := build_eq c h
  exact ⟨_, h3, by simp [built, Polys.totalLength, Circuit.nodes, hc]⟩

/-! ## C124: heading and curvature -/

/-- Values at the middle of an element. -/
theorem at_middle (c : Circuit) (h : Meshed c) (i : Nat) (a b : ℝ) (p q : Point ℝ)
    (ha : c.nodes[i]? = some a) (hb : c.nodes[i + 1]? = some b) (hp : (c.wrap c.pts)[i]? = some p)
    (hq : (c.wrap c.pts)[i + 1]? = some q) :
    ∃ T f g m, build c = .ok T ∧ T.at a = some f ∧ T.at b = some g ∧ T.at ((a + b) / 2) = some m ∧
      f.yaw = p.yaw ∧ g.yaw = q.yaw ∧ m.dyaw = (p.yawDot + q.yawDot) / 2 ∧
      (c.withElevation = true → f.pitch = p.pitch ∧ g.pitch = q.pitch ∧
        f.roll = p.roll ∧ g.roll = q.roll ∧
        m.dpitch = (p.dpitchDot + q.dpitchDot) / 2 ∧ m.droll = (p.drollDot + q.drollDot) / 2) := by
  obtain ⟨a0, b0, h1, h2, h3⟩ := build_eq c h
  have hpw := nodes_pairwise c h
  have hia : i < c.nodes.length := by
    by_contra h'; rw [List.getElem?_eq_none (by omega)] at ha; cases ha
  have hib : i + 1 < c.nodes.length := by
    by_contra h'; rw [List.getElem?_eq_none (by omega)] at hb; cases hb
  have hab : a < b := by
    have := List.pairwise_iff_getElem.1 hpw i (i + 1) hia hib (by omega)
    rw [List.getElem?_eq_getElem hia] at ha
    rw [List.getElem?_eq_getElem hib] at hb
    rw [← Option.some.inj ha, ← Option.some.inj hb]; exact this
  have hpts : c.pts ≠ [] := by
    rintro h'; rw [h'] at hp; cases hc : c.closed <;> simp [Circuit.wrap, hc] at hp
  have hl : ∀ f : Point ℝ → ℝ, c.nodes.length = ((c.wrap c.pts).map f).length := by
    intro f; rw [List.length_map, wrap_length c _ hpts, nodes_length, h.sizes]
  have ma : a0 ≤ a := head_le _ hpw _ _ h1 (List.mem_of_getElem? ha)
  have mb : b ≤ b0 := le_last _ hpw _ _ h2 (List.mem_of_getElem? hb)
  have hmap : ∀ (j : Nat) (x : Point ℝ) (f : Point ℝ → ℝ), (c.wrap c.pts)[j]? = some x →
      ((c.wrap c.pts).map f)[j]? = some (f x) := by
    intro j x f hx; rw [List.getElem?_map, hx]; rfl
  refine ⟨_, _, _, _, h3,
    built_at c a0 b0 a ma (by linarith) (fun f => f p) fun f =>
      line_node _ _ i a _ hpw (hl f) (nodes_two c h) ha (hmap i p f hp),
    built_at c a0 b0 b (by linarith) mb (fun f => f q) fun f =>
      line_node _ _ (i + 1) b _ hpw (hl f) (nodes_two c h) hb (hmap (i + 1) q f hq),
    built_at c a0 b0 ((a + b) / 2) (by linarith) (by linarith)
      (fun f => f p + (f q - f p) * (((a + b) / 2 - a) / (b - a))) fun f =>
      line_between _ _ i a b _ _ _ hpw ha hb (hmap i p f hp) (hmap (i + 1) q f hq) (by linarith)
        (by linarith), rfl, rfl, ?_, ?_⟩
  all_goals
    have hhalf : ((a + b) / 2 - a) / (b - a) = 1 / 2 := by
      rw [div_eq_div_iff (sub_pos.2 hab).ne' two_ne_zero]; ring
  · simp only [hhalf]; ring
  · intro he
    simp only [he, if_true, true_and, hhalf]
    constructor <;> ring

/-- C124, the part that holds. If heading and curvature of the circuit follow the trapezoidal rule, the
heading of the track changes over every element, but for the closing one, as its curvature says: by the
length of the element times the curvature in the middle, the integral of the linear curvature. -/
theorem C124_heading_partial (c : Circuit) (h : Meshed c) (hy : Consistent Point.yaw Point.yawDot c)
    (i : Nat) (a b : ℝ) (ha : c.s[i]? = some a) (hb : c.s[i + 1]? = some b) :
    ∃ T f g m, build c = .ok T ∧ T.at a = some f ∧ T.at b = some g ∧ T.at ((a + b) / 2) = some m ∧
      g.yaw - f.yaw = (b - a) * m.dyaw := by
  have hia : i + 1 < c.pts.length := by
    rw [← h.sizes]
    by_contra h'; rw [List.getElem?_eq_none (by omega)] at hb; cases hb
  have hp : c.pts[i]? = some c.pts[i] := List.getElem?_eq_getElem (by omega)
  have hq : c.pts[i + 1]? = some c.pts[i + 1] := List.getElem?_eq_getElem (by omega)
  obtain ⟨T, f, g, m, h1, h2, h3, h4, h5, h6, h7, -⟩ := at_middle c h i a b _ _ (nodes_getElem c _ _ ha)
    (nodes_getElem c _ _ hb) (wrap_getElem c _ _ _ hp) (wrap_getElem c _ _ _ hq)
  refine ⟨T, f, g, m, h1, h2, h3, h4, ?_⟩
  rw [h5, h6, h7, hy i a b _ _ ha hb hp hq]; ring

/-- C124 is false for every closed circuit: if its heading gains a full turn over the lap, as the
preprocessor imposes, the heading of the track over the closing element is a full turn away from what
its curvature says. -/
theorem C124_false (c : Circuit) (h : Meshed c) (hc : c.closed = true) (direction : ℤ)
    (hd : direction ≠ 0) (b : ℝ) (p q : Point ℝ) (hb : c.s.getLast? = some b)
    (hp : c.pts.head? = some p) (hq : c.pts.getLast? = some q)
    (hy : p.yaw + 2 * Real.pi * direction - q.yaw
      = (c.trackLength - b) / 2 * (q.yawDot + p.yawDot)) :
    ∃ T f g m, build c = .ok T ∧ T.at b = some f ∧ T.at c.trackLength = some g ∧
      T.at ((b + c.trackLength) / 2) = some m ∧
      g.yaw - f.yaw = (c.trackLength - b) * m.dyaw - 2 * Real.pi * direction ∧
      g.yaw - f.yaw ≠ (c.trackLength - b) * m.dyaw := by
  obtain ⟨n, hn⟩ : ∃ n, c.s.length = n + 1 := by
    have := h.elements
    rw [hc] at this
    exact ⟨c.s.length - 1, by simp at this; omega⟩
  have hbn : c.s[n]? = some b := by
    rw [List.getLast?_eq_getElem?, hn] at hb; simpa using hb
  have hqn : c.pts[n]? = some q := by
    rw [List.getLast?_eq_getElem?, ← h.sizes, hn] at hq; simpa using hq
  obtain ⟨p', l, hpl⟩ : ∃ p' l, c.pts = p' :: l := by
    cases hh : c.pts with
    | nil => rw [hh] at hp; simp at hp
    | cons x l => exact ⟨x, l, rfl⟩
  have hpp : p' = p := by rw [hpl] at hp; simpa using hp
  subst hpp
  have hll : l.length = n := by have := h.sizes; rw [hpl, hn] at this; simpa using this.symm
  have hnL : c.nodes[n + 1]? = some c.trackLength := by
    simp [Circuit.nodes, hc, ← hn]
  obtain ⟨T, f, g, m, h1, h2, h3, h4, h5, h6, h7, -⟩ := at_middle c h n b c.trackLength q p'
    (nodes_getElem c _ _ hbn) hnL (wrap_getElem c _ _ _ hqn)
    (by rw [hpl, ← hll]; exact wrap_end c hc p' l)
  have e : g.yaw - f.yaw = (c.trackLength - b) * m.dyaw - 2 * Real.pi * direction := by
    rw [h5, h6, h7]; linear_combination hy
  refine ⟨T, f, g, m, h1, h2, h3, h4, e, ?_⟩
  rw [e]
  intro h'
  have : 2 * Real.pi * (direction : ℝ) = 0 := by linarith
  have hpi := Real.pi_pos
  rcases mul_eq_zero.1 this with h0 | h0
  · linarith
  · exact hd (by exact_mod_cast h0)

/-- A closed circuit of two points that turn half a turn each. -/
noncomputable def ring2 : Circuit :=
  let p : Point ℝ := ⟨0, 0, 0, 0, 0, 0, Real.pi / 10, 0, 0, 5, 5, 0, 0, 0, 0, 0⟩
  { closed := true, withElevation := false, s := [0, 10], pts := [p, { p with yaw := Real.pi }]
    leftKerbs := [], rightKerbs := [], trackLength := 20 }

theorem ring2_meshed : Meshed ring2 :=
  ⟨rfl, by simp [ring2], by intro _ v hv; simp only [ring2, List.mem_cons, List.not_mem_nil, or_false] at hv; rcases hv with rfl | rfl <;> norm_num [ring2], by simp [ring2]⟩

example : ∃ T f g m, build ring2 = .ok T ∧ T.at 10 = some f ∧ T.at 20 = some g ∧
    T.at ((10 + 20) / 2) = some m ∧ g.yaw - f.yaw = (20 - 10) * m.dyaw - 2 * Real.pi * (1 : ℤ) ∧
    g.yaw - f.yaw ≠ (20 - 10) * m.dyaw :=
  C124_false ring2 ring2_meshed rfl 1 (by norm_num) 10 _ _ rfl rfl rfl (by norm_num [ring2]; ring)

example : Consistent Point.yaw Point.yawDot ring2 := by
  intro i a b p q h1 h2 h3 h4
  match i with
  | 0 =>
    simp only [ring2, List.getElem?_cons_zero, List.getElem?_cons_succ, Option.some.injEq] at h1 h2 h3 h4
    subst h1 h2 h3 h4
    norm_num; ring
  | i + 1 => simp [ring2] at h2

/-! ## C125: rates of pitch and roll -/

/-- C125, the part that holds: without elevation pitch and roll and their rates are zero, and with it
the rates of the track are the controls `dpitch_dot` and `droll_dot` of the preprocessor, the second
derivatives of the angles. If these happen to be the rates (`pitch_dot`, `roll_dot`) the angles change as
the rates say. -/
theorem C125_rates_partial (c : Circuit) (h : Meshed c) (he : c.withElevation = true)
    (hp : Consistent Point.pitch Point.pitchDot c) (hr : Consistent Point.roll Point.rollDot c)
    (hsame : ∀ p ∈ c.pts, p.dpitchDot = p.pitchDot ∧ p.drollDot = p.rollDot)
    (i : Nat) (a b : ℝ) (ha : c.s[i]? = some a) (hb : c.s[i + 1]? = some b) :
    ∃ T f g m, build c = .ok T ∧ T.at a = some f ∧ T.at b = some g ∧ T.at ((a + b) / 2) = some m ∧
      g.pitch - f.pitch = (b - a) * m.dpitch ∧ g.roll - f.roll = (b - a) * m.droll := by
  have hia : i + 1 < c.pts.length := by
    rw [← h.sizes]
    by_contra h'; rw [List.getElem?_eq_none (by omega)] at hb; cases hb
  have hp' : c.pts[i]? = some c.pts[i] := List.getElem?_eq_getElem (by omega)
  have hq' : c.pts[i + 1]? = some c.pts[i + 1] := List.getElem?_eq_getElem (by omega)
  obtain ⟨T, f, g, m, h1, h2, h3, h4, -, -, -, h8⟩ := at_middle c h i a b _ _ (nodes_getElem c _ _ ha)
    (nodes_getElem c _ _ hb) (wrap_getElem c _ _ _ hp') (wrap_getElem c _ _ _ hq')
  obtain ⟨e1, e2, e3, e4, e5, e6⟩ := h8 he
  have s1 := hsame c.pts[i] (List.getElem_mem _)
  have s2 := hsame c.pts[i + 1] (List.getElem_mem _)
  refine ⟨T, f, g, m, h1, h2, h3, h4, ?_, ?_⟩
  · rw [e1, e2, e5, hp i a b _ _ ha hb hp' hq', s1.1, s2.1]; ring
  · rw [e3, e4, e6, hr i a b _ _ ha hb hp' hq', s1.2, s2.2]; ring

/-- An open elevated track whose pitch grows steadily: its rate is constant, so that the second
derivative is zero. -/
noncomputable def ramp : Circuit :=
  let p : Point ℝ := ⟨0, 0, 0, 0, 0, 0, 0, 1 / 100, 0, 5, 5, 0, 0, 0, 0, 0⟩
  { closed := false, withElevation := true, s := [0, 10], pts := [p, { p with pitch := 1 / 10 }]
    leftKerbs := [], rightKerbs := [], trackLength := 10 }

theorem ramp_meshed : Meshed ramp :=
  ⟨rfl, by simp [ramp], by intro h; exact absurd h (by simp [ramp]), by simp [ramp]⟩

/-- C125 is false: on a track whose pitch grows steadily the rate of pitch of the track is zero. -/
theorem C125_false : Meshed ramp ∧ Consistent Point.pitch Point.pitchDot ramp ∧
    ∃ T f g m, build ramp = .ok T ∧ T.at 0 = some f ∧ T.at 10 = some g ∧
      T.at ((0 + 10) / 2) = some m ∧ g.pitch - f.pitch = 1 / 10 ∧ m.dpitch = 0 := by
  refine ⟨ramp_meshed, ?_, ?_⟩
  · intro i a b p q h1 h2 h3 h4
    match i with
    | 0 =>
      simp only [ramp, List.getElem?_cons_zero, List.getElem?_cons_succ, Option.some.injEq] at h1 h2 h3 h4
      subst h1 h2 h3 h4
      norm_num
    | i + 1 => simp [ramp] at h2
  · obtain ⟨T, f, g, m, h1, h2, h3, h4, -, -, -, h8⟩ := at_middle ramp ramp_meshed 0 0 10 _ _ rfl rfl rfl rfl
    obtain ⟨e1, e2, -, -, e5, -⟩ := h8 rfl
    refine ⟨T, f, g, m, h1, h2, h3, h4, ?_, ?_⟩
    · rw [e1, e2]; norm_num
    · rw [e5]; norm_num

/-! ## C126: planar curves -/

theorem planar_values (v v' θ θ' : ℝ) (hv : 0 < v) :
    let d : Vec3 := (v * Real.cos θ, v * Real.sin θ, 0)
    let d2 : Vec3 := (v' * Real.cos θ - v * Real.sin θ * θ', v' * Real.sin θ + v * Real.cos θ * θ', 0)
    planarCurvature d d2 = θ' / v ∧
      Real.cos (planarHeading d) = Real.cos θ ∧ Real.sin (planarHeading d) = Real.sin θ := by
  have hcs := Real.cos_sq_add_sin_sq θ
  have hn : Preprocessor.normV (v * Real.cos θ, v * Real.sin θ, 0) = v := by
    unfold Preprocessor.normV
    rw [show (v * Real.cos θ) * (v * Real.cos θ) + (v * Real.sin θ) * (v * Real.sin θ) + (0 : ℝ) * 0
      = v * v by linear_combination v ^ 2 * hcs, Real.sqrt_mul_self hv.le]
  refine ⟨?_, ?_, ?_⟩
  · simp only [planarCurvature, hn, Preprocessor.crossV]
    rw [div_eq_div_iff (by
      have : v * Real.cos θ * (v * Real.cos θ) + v * Real.sin θ * (v * Real.sin θ) + 0 * 0 = v * v := by
        linear_combination v ^ 2 * hcs
      rw [this]; positivity) hv.ne']
    ring
  all_goals
    have hne : (⟨v * Real.cos θ, v * Real.sin θ⟩ : ℂ) ≠ 0 := by
      intro h0
      have := congrArg Complex.re h0
      have := congrArg Complex.im h0
      simp only [Complex.zero_re, Complex.zero_im] at *
      have h1 : Real.cos θ = 0 := by
        rcases mul_eq_zero.1 ‹v * Real.cos θ = 0› with h | h
        · exact absurd h hv.ne'
        · exact h
      have h2 : Real.sin θ = 0 := by
        rcases mul_eq_zero.1 ‹v * Real.sin θ = 0› with h | h
        · exact absurd h hv.ne'
        · exact h
      rw [h1, h2] at hcs; norm_num at hcs
    have habs : ‖(⟨v * Real.cos θ, v * Real.sin θ⟩ : ℂ)‖ = v := by
      rw [Complex.norm_def, Complex.normSq_mk]
      rw [show v * Real.cos θ * (v * Real.cos θ) + v * Real.sin θ * (v * Real.sin θ) = v * v by
        linear_combination v ^ 2 * hcs, Real.sqrt_mul_self hv.le]
  · simp only [planarHeading, Preprocessor.atan2]
    rw [Complex.cos_arg hne, habs]
    simp [hv.ne']
  · simp only [planarHeading, Preprocessor.atan2]
    rw [Complex.sin_arg, habs]
    simp [hv.ne']

/-- C126. Along a planar curve the heading of the track is the direction of travel and its curvature is
the change of heading per unit of length: for a curve whose derivative is `v (cos θ, sin θ)` with
`v > 0`, the heading is `θ` up to full turns, and the curvature is the derivative of `θ` divided by
`v`. -/
theorem C126_planar (v θ : ℝ → ℝ) (t θ' d2x d2y : ℝ) (hv : 0 < v t) (hdv : DifferentiableAt ℝ v t)
    (hθ : HasDerivAt θ θ' t) (hx : HasDerivAt (fun u => v u * Real.cos (θ u)) d2x t)
    (hy : HasDerivAt (fun u => v u * Real.sin (θ u)) d2y t) :
    let d : Vec3 := (v t * Real.cos (θ t), v t * Real.sin (θ t), 0)
    planarCurvature d (d2x, d2y, 0) = θ' / v t ∧
      Real.cos (planarHeading d) = Real.cos (θ t) ∧ Real.sin (planarHeading d) = Real.sin (θ t) := by
  obtain ⟨h1, h2, h3⟩ := planar_values (v t) (deriv v t) (θ t) θ' hv
  have ex : d2x = deriv v t * Real.cos (θ t) - v t * Real.sin (θ t) * θ' := by
    rw [hx.unique (hdv.hasDerivAt.mul hθ.cos)]; ring
  have ey : d2y = deriv v t * Real.sin (θ t) + v t * Real.cos (θ t) * θ' := by
    rw [hy.unique (hdv.hasDerivAt.mul hθ.sin)]; ring
  refine ⟨?_, h2, h3⟩
  rw [ex, ey]; exact h1

/-- The circle of radius 2 travelled with speed 2. -/
example : planarCurvature (2 * Real.cos 1, 2 * Real.sin 1, 0) (-(2 * Real.sin 1), 2 * Real.cos 1, 0)
    = 1 / 2 := by
  have h := planar_values 2 0 1 1 two_pos
  simpa using h.1

/-- C126. A curve with a coefficient of height above 1e-12 is rejected, every other one accepted. -/
theorem C126_check (blocks : List (List Vec3)) :
    (planar blocks = .ok () ↔ ∀ b ∈ blocks, ∀ v ∈ b, |v.2.2| < 1 / 10 ^ 12) ∧
    (planar blocks = .throw ↔ ∃ b ∈ blocks, ∃ v ∈ b, 1 / 10 ^ 12 ≤ |v.2.2|) := by
  unfold planar
  by_cases h : ∀ b ∈ blocks, ∀ v ∈ b, |v.2.2| < 1 / 10 ^ 12
  · rw [if_pos h]
    refine ⟨⟨fun _ => h, fun _ => rfl⟩, ⟨fun h' => (nomatch h'), ?_⟩⟩
    rintro ⟨b, hb, v, hv, hle⟩
    exact absurd (h b hb v hv) (not_lt.2 hle)
  · rw [if_neg h]
    refine ⟨⟨fun h' => (nomatch h'), fun h' => absurd h' h⟩, ⟨fun _ => ?_, fun _ => rfl⟩⟩
    push Not at h
    exact h

/-! ## C127: elevation -/

/-- C127. A circuit computed without elevation, whose heights are zero, gives a track without elevation;
one computed with elevation that climbs, leans or is not at height zero somewhere gives a track with
elevation (`tol` is the tolerance of the library). -/
theorem C127_elevation (c : Circuit) (h : Meshed c) (tol : ℝ) (htol : 0 ≤ tol) :
    ∃ T, build c = .ok T ∧
      (c.withElevation = false → (∀ p ∈ c.pts, p.z = 0) → T.hasElevation tol = false) ∧
      (c.withElevation = true →
        (∃ p ∈ c.pts, tol < |p.pitch| ∨ tol < |p.roll| ∨ 1 / 10 ^ 12 ≤ |p.z|) →
        T.hasElevation tol = true) := by
  obtain ⟨a, b, -, -, h3⟩ := build_eq c h
  have hw : ∀ p, p ∈ c.wrap c.pts ↔ p ∈ c.pts := by
    intro p
    unfold Circuit.wrap
    cases hc : c.pts with
    | nil => cases c.closed <;> simp
    | cons x l => cases c.closed <;> simp; tauto
  refine ⟨_, h3, ?_, ?_⟩
  · intro he hz
    unfold Polys.hasElevation built
    simp only [he, Bool.false_eq_true, if_false]
    rw [decide_eq_false_iff_not]
    have h0 : ∀ v ∈ [(0 : ℝ), 0], |v| ≤ tol := by
      intro v hv
      have : v = 0 := by simpa using hv
      rw [this, abs_zero]; exact htol
    have hz' : ∀ v ∈ (c.wrap c.pts).map Point.z, |v| < 1 / 10 ^ 12 := by
      intro v hv
      obtain ⟨p, hp, rfl⟩ := List.mem_map.1 hv
      rw [hz p ((hw p).1 hp), abs_zero]; norm_num
    rintro (h' | h' | h' | h' | h')
    · exact h' h0
    · exact h' h0
    · exact h' hz'
    · exact h' h0
    · exact h' h0
  · intro he ⟨p, hp, hcase⟩
    have hp' := (hw p).2 hp
    unfold Polys.hasElevation built
    simp only [he, if_true]
    rw [decide_eq_true_iff]
    rcases hcase with h1 | h1 | h1
    · exact Or.inl fun h' => absurd (h' _ (List.mem_map_of_mem hp')) (not_le.2 h1)
    · exact Or.inr (Or.inl fun h' => absurd (h' _ (List.mem_map_of_mem hp')) (not_le.2 h1))
    · exact Or.inr (Or.inr (Or.inl fun h' => absurd (h' _ (List.mem_map_of_mem hp')) (not_lt.2 h1)))

end Verif.Track
