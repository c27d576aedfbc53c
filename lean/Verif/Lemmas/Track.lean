import Verif.Spec.Track
import Mathlib.Tactic.Ring
import Mathlib.Tactic.Linarith
import Mathlib.Tactic.FieldSimp

set_option autoImplicit false

namespace Verif.Track

open Verif.Road (Vec3 TrackPoint)
open Verif.Preprocessor (Point)
open Verif.Kerbs (Kerb augmentAll augment)

theorem line_between : ∀ (s v : List ℝ) (i : Nat) (a b va vb t : ℝ), s.Pairwise (· < ·) →
    s[i]? = some a → s[i + 1]? = some b → v[i]? = some va → v[i + 1]? = some vb →
    a ≤ t → t ≤ b → line s v t = some (va + (vb - va) * ((t - a) / (b - a)))
  | [], _, _, _, _, _, _, _, _, h, _, _, _, _, _ => by simp at h
  | [_], _, i, _, _, _, _, _, _, _, h, _, _, _, _ => by simp at h
  | _ :: _ :: _, [], _, _, _, _, _, _, _, _, _, h, _, _, _ => by simp at h
  | _ :: _ :: _, [_], _, _, _, _, _, _, _, _, _, _, h, _, _ => by simp at h
  | s0 :: s1 :: s, v0 :: v1 :: v, 0, a, b, va, vb, t, hs, h1, h2, h3, h4, h5, h6 => by
    simp only [List.getElem?_cons_zero, List.getElem?_cons_succ, Option.some.injEq] at h1 h2 h3 h4
    subst h1 h2 h3 h4
    rw [line, if_neg (not_lt.2 h5), if_pos h6]
  | s0 :: s1 :: s, v0 :: v1 :: v, i + 1, a, b, va, vb, t, hs, h1, h2, h3, h4, h5, h6 => by
    have hs' := List.pairwise_cons.1 hs
    have h01 : s0 < s1 := hs'.1 s1 (by simp)
    have ih := line_between (s1 :: s) (v1 :: v) i a b va vb t hs'.2 (by simpa using h1)
      (by simpa using h2) (by simpa using h3) (by simpa using h4) h5 h6
    have ha : s1 ≤ a := by
      cases i with
      | zero => simp at h1; exact h1.le
      | succ i =>
        have : a ∈ s := List.mem_of_getElem? (by simpa using h1)
        exact ((List.pairwise_cons.1 hs'.2).1 a this).le
    rw [line, if_neg (by linarith)]
    by_cases ht : t ≤ s1
    · rw [if_pos ht]
      have e1 : t = s1 := le_antisymm ht (ha.trans h5)
      have e2 : a = s1 := le_antisymm (h5.trans ht) ha
      have hi : i = 0 := by
        cases i with
        | zero => rfl
        | succ i =>
          have : a ∈ s := List.mem_of_getElem? (by simpa using h1)
          have := (List.pairwise_cons.1 hs'.2).1 a this
          linarith
      subst hi
      simp only [List.getElem?_cons_zero, List.getElem?_cons_succ, Option.some.injEq] at h3
      rw [e1, e2, h3, div_self (sub_ne_zero.2 h01.ne'), sub_self, zero_div]
      congr 1; ring
    · rw [if_neg ht]; exact ih

theorem line_node (s v : List ℝ) (i : Nat) (a va : ℝ) (hs : s.Pairwise (· < ·))
    (hl : s.length = v.length) (h2 : 2 ≤ s.length) (h1 : s[i]? = some a) (h3 : v[i]? = some va) :
    line s v a = some va := by
  have hi : i < s.length := by
    by_contra h
    rw [List.getElem?_eq_none (by omega)] at h1
    cases h1
  by_cases hn : i + 1 < s.length
  · rw [line_between s v i a s[i + 1] va (v[i + 1]'(by omega)) a hs h1 (by simp) h3 (by simp) le_rfl
      ?_, sub_self, zero_div, mul_zero, add_zero]
    have h1' : s[i] = a := by rw [List.getElem?_eq_getElem hi] at h1; exact Option.some.inj h1
    rw [← h1']
    exact (List.pairwise_iff_getElem.1 hs i (i + 1) hi hn (by omega)).le
  · obtain ⟨j, rfl⟩ : ∃ j, i = j + 1 := ⟨i - 1, by omega⟩
    have h1' : s[j + 1] = a := by rw [List.getElem?_eq_getElem hi] at h1; exact Option.some.inj h1
    have hlt := List.pairwise_iff_getElem.1 hs j (j + 1) (by omega) hi (by omega)
    rw [line_between s v j s[j] a (v[j]'(by omega)) va a hs (by simp) h1 (by simp) h3
      (by rw [← h1']; exact hlt.le) le_rfl, div_self (by rw [← h1']; exact sub_ne_zero.2 hlt.ne')]
    congr 1; ring

theorem line_zero (s0 s1 t : ℝ) (h0 : s0 ≤ t) (h1 : t ≤ s1) : line [s0, s1] [0, 0] t = some 0 := by
  rw [line, if_neg (not_lt.2 h0), if_pos h1]; simp

theorem augmentAll_ok (ks : List (Kerb ℝ)) : ∀ (ss ws : List ℝ), ss.length = ws.length →
    augmentAll ks ss ws = .ok (List.zipWith (fun s w => augment s w ks) ss ws)
  | [], [], _ => rfl
  | [], _ :: _, h => by simp at h
  | _ :: _, [], h => by simp at h
  | s :: ss, w :: ws, h => by
    simp only [augmentAll, augmentAll_ok ks ss ws (by simpa using h), Res.bind_ok,
      List.zipWith_cons_cons]

/-- The nodes of the track: those of the circuit and, if it is closed, its end. -/
def Circuit.nodes (c : Circuit) : List ℝ := if c.closed then c.s ++ [c.trackLength] else c.s

/-- A list with its first element repeated at the end if the circuit is closed. -/
def Circuit.wrap {α : Type} (c : Circuit) (l : List α) : List α :=
  if c.closed then l ++ l.head?.toList else l

theorem closeWith_wrap {α : Type} (c : Circuit) (l : List α) (h : l ≠ []) :
    closeWith c.closed l = .ok (c.wrap l) := by
  unfold closeWith Circuit.wrap
  cases l with
  | nil => exact absurd rfl h
  | cons a l => cases c.closed <;> simp

theorem wrap_map {α β : Type} (c : Circuit) (f : α → β) (l : List α) :
    (c.wrap l).map f = c.wrap (l.map f) := by
  unfold Circuit.wrap
  cases l <;> cases c.closed <;> simp

theorem wrap_length {α : Type} (c : Circuit) (l : List α) (h : l ≠ []) :
    (c.wrap l).length = l.length + (if c.closed then 1 else 0) := by
  unfold Circuit.wrap
  cases l with
  | nil => exact absurd rfl h
  | cons a l => cases c.closed <;> simp

theorem wrap_getElem {α : Type} (c : Circuit) (l : List α) (i : Nat) (a : α) (h : l[i]? = some a) :
    (c.wrap l)[i]? = some a := by
  have hi : i < l.length := by
    by_contra h'
    rw [List.getElem?_eq_none (by omega)] at h
    cases h
  unfold Circuit.wrap
  cases c.closed
  · simpa using h
  · simp only [if_true]
    rw [List.getElem?_append_left hi]; exact h

theorem wrap_end {α : Type} (c : Circuit) (hc : c.closed = true) (a : α) (l : List α) :
    (c.wrap (a :: l))[l.length + 1]? = some a := by
  simp [Circuit.wrap, hc]

theorem nodes_getElem (c : Circuit) (i : Nat) (a : ℝ) (h : c.s[i]? = some a) :
    c.nodes[i]? = some a := by
  have hi : i < c.s.length := by
    by_contra h'
    rw [List.getElem?_eq_none (by omega)] at h
    cases h
  unfold Circuit.nodes
  cases c.closed
  · simpa using h
  · simp only [if_true]
    rw [List.getElem?_append_left hi]; exact h

theorem nodes_pairwise (c : Circuit) (h : Meshed c) : c.nodes.Pairwise (· < ·) := by
  unfold Circuit.nodes
  cases hc : c.closed
  · simpa using h.increasing
  · simp only [if_true]
    refine List.pairwise_append.2 ⟨h.increasing, by simp, ?_⟩
    intro a ha b hb
    obtain rfl : b = c.trackLength := by simpa using hb
    exact h.below hc a ha

theorem nodes_length (c : Circuit) : c.nodes.length = c.s.length + (if c.closed then 1 else 0) := by
  unfold Circuit.nodes
  cases c.closed <;> simp

theorem nodes_two (c : Circuit) (h : Meshed c) : 2 ≤ c.nodes.length := by
  rw [nodes_length]
  have := h.elements
  cases hc : c.closed <;> simp only [hc, if_true, Bool.false_eq_true, if_false] at this ⊢ <;> omega

/-- The limits of one side with its kerbs. -/
noncomputable def widths (ks : List (Kerb ℝ)) (c : Circuit) (f : Point ℝ → ℝ) : List ℝ :=
  c.wrap (List.zipWith (fun s w => augment s w ks) c.s (c.pts.map f))

/-- What `build` returns on a meshed circuit. -/
noncomputable def built (c : Circuit) (a b : ℝ) : Polys :=
  { s := c.nodes, x := (c.wrap c.pts).map Point.x, y := (c.wrap c.pts).map Point.y
    z := (c.wrap c.pts).map Point.z, yaw := (c.wrap c.pts).map Point.yaw
    dyaw := (c.wrap c.pts).map Point.yawDot
    wl := widths c.leftKerbs c Point.nl, wr := widths c.rightKerbs c Point.nr
    sAngles := if c.withElevation then c.nodes else [a, b]
    pitch := if c.withElevation then (c.wrap c.pts).map Point.pitch else [0, 0]
    roll := if c.withElevation then (c.wrap c.pts).map Point.roll else [0, 0]
    dpitch := if c.withElevation then (c.wrap c.pts).map Point.dpitchDot else [0, 0]
    droll := if c.withElevation then (c.wrap c.pts).map Point.drollDot else [0, 0] }

theorem build_eq (c : Circuit) (h : Meshed c) : ∃ a b, c.nodes.head? = some a ∧
    c.nodes.getLast? = some b ∧ build c = .ok (built c a b) := by
  have h2 := nodes_two c h
  have hne : c.nodes ≠ [] := by intro h'; rw [h'] at h2; simp at h2
  have hs : c.s ≠ [] := by
    intro h'
    have := h.elements
    rw [h'] at this
    cases hc : c.closed <;> simp [hc] at this
  have hp : c.pts ≠ [] := by
    intro h'
    have := h.sizes
    rw [h'] at this
    exact hs (List.length_eq_zero_iff.1 (by simpa using this))
  have hz : ∀ (ks : List (Kerb ℝ)) (f : Point ℝ → ℝ),
      List.zipWith (fun s w => augment s w ks) c.s (c.pts.map f) ≠ [] := by
    intro ks f
    cases h1 : c.s with
    | nil => exact absurd h1 hs
    | cons a l =>
      cases h3 : c.pts with
      | nil => exact absurd h3 hp
      | cons p q => simp
  refine ⟨c.nodes.head hne, c.nodes.getLast hne, List.head?_eq_some_head hne,
    List.getLast?_eq_some_getLast hne, ?_⟩
  unfold build
  rw [augmentAll_ok _ _ _ (by simpa using h.sizes), Res.bind_ok,
    augmentAll_ok _ _ _ (by simpa using h.sizes), Res.bind_ok, closeWith_wrap _ _ hp, Res.bind_ok,
    closeWith_wrap _ _ (hz _ _), Res.bind_ok, closeWith_wrap _ _ (hz _ _), Res.bind_ok]
  have e : (if c.closed = true then c.s ++ [c.trackLength] else c.s) = c.nodes := rfl
  simp only [e, List.head?_eq_some_head hne, List.getLast?_eq_some_getLast hne]
  rfl

/-- Evaluation of the track where every interpolated value is known. -/
theorem built_at (c : Circuit) (a b t : ℝ) (ha : a ≤ t) (hb : t ≤ b) (val : (Point ℝ → ℝ) → ℝ)
    (h : ∀ f, line c.nodes ((c.wrap c.pts).map f) t = some (val f)) :
    (built c a b).at t = some
      ⟨(val Point.x, val Point.y, val Point.z), val Point.yaw,
        (if c.withElevation then val Point.pitch else 0),
        (if c.withElevation then val Point.roll else 0), val Point.yawDot,
        (if c.withElevation then val Point.dpitchDot else 0),
        (if c.withElevation then val Point.drollDot else 0)⟩ := by
  unfold Polys.at built
  simp only [h, Option.bind_some]
  cases c.withElevation
  · simp only [Bool.false_eq_true, if_false, line_zero a b t ha hb, Option.bind_some, Option.map_some]
  · simp only [if_true, h, Option.bind_some, Option.map_some]

theorem head_le (l : List ℝ) (hl : l.Pairwise (· < ·)) (a b : ℝ) (ha : l.head? = some a)
    (hb : b ∈ l) : a ≤ b := by
  cases l with
  | nil => simp at hb
  | cons x l =>
    simp only [List.head?_cons, Option.some.injEq] at ha
    subst ha
    rcases List.mem_cons.1 hb with rfl | hb
    · exact le_rfl
    · exact ((List.pairwise_cons.1 hl).1 b hb).le

theorem le_last (l : List ℝ) (hl : l.Pairwise (· < ·)) (a b : ℝ) (ha : l.getLast? = some a)
    (hb : b ∈ l) : b ≤ a := by
  obtain ⟨hne, rfl⟩ : ∃ h : l ≠ [], l.getLast h = a := by
    cases l with
    | nil => simp at ha
    | cons x l =>
      rw [List.getLast?_eq_some_getLast (by simp)] at ha
      exact ⟨by simp, Option.some.inj ha⟩
  obtain ⟨i, hi, rfl⟩ := List.getElem_of_mem hb
  rw [List.getLast_eq_getElem]
  by_cases h : i = l.length - 1
  · subst h; exact le_rfl
  · exact (List.pairwise_iff_getElem.1 hl i (l.length - 1) hi (by omega) (by omega)).le

end Verif.Track
