import Verif.Spec.Mesh
import Verif.Lemmas.Mesh
import Mathlib.Data.List.Sort
import Mathlib.Tactic.NormNum

/-! # Breakpoints of the mesh and ends of an open track -/

set_option autoImplicit false

namespace Verif.Mesh

open Verif.Preprocessor (Coord)

/-! ## C130: the size of the elements changes at the breakpoints -/

section breakpoints

variable {K V : Type*} [Field K] [LinearOrder K] [IsStrictOrderedRing K]

/-- C130, the part that holds: at a point that shares its segment of the curve with no breakpoint, the
size is the one of the last breakpoint reached. Without breakpoints the behaviour is undefined. -/
theorem C130_sizes_partial (dist : V → V → K) (find : V → Closest V) (pos : V → K)
    (hloc : Locates find pos) (point : V) (bs : List (V × K)) :
    match bs with
    | [] => sizeAt dist find point bs = .ub
    | (_, d) :: rest => (∀ b ∈ rest, (find b.1).front ≠ (find point).front) →
        sizeAt dist find point bs = .ok (sizeReached pos (pos point) d rest) := by
  cases bs with
  | nil => rfl
  | cons b0 rest =>
    obtain ⟨v0, d⟩ := b0
    intro h
    simp only [sizeAt]
    congr 1
    induction rest generalizing d with
    | nil => rfl
    | cons b rest ih =>
      obtain ⟨v, d'⟩ := b
      have hne := h (v, d') (by simp)
      have hw : whoIsAhead dist (find v) (find point) v
          = if (find v).front < (find point).front then 2 else 1 := by
        unfold whoIsAhead
        rw [if_neg (fun hc => hne hc.1)]
      rw [sizeLoop, sizeReached, hw]
      obtain ⟨a1, a2⟩ := hloc v
      obtain ⟨b1, b2⟩ := hloc point
      by_cases hlt : (find v).front < (find point).front
      · have hc : ((find v).front : K) + 1 ≤ (find point).front := by exact_mod_cast hlt
        rw [if_pos hlt, if_neg (by decide), if_pos (by linarith)]
        exact ih d' fun b hb => h b (by simp [hb])
      · have hgt : (find point).front + 1 ≤ (find v).front := by
          have hne' : (find v).front ≠ (find point).front := hne
          omega
        have hc : ((find point).front : K) + 1 ≤ (find v).front := by exact_mod_cast hgt
        rw [if_neg hlt, if_pos rfl, if_neg (by linarith)]

omit [Field K] [IsStrictOrderedRing K] in
/-- C130. In the segment of the breakpoint the order is not what decides: if both are inside the segment
the breakpoint counts as reached wherever it is, since no point is closer to it than its own
projection; and a breakpoint on the first vertex of the segment counts as not reached. -/
theorem C130_same_segment (dist : V → V → K) (find : V → Closest V) (point b : V)
    (hmin : dist (find b).point b ≤ dist (find point).point b)
    (hf : (find b).front = (find point).front) :
    ((find b).back = (find point).back → (find b).front ≠ (find b).back →
      whoIsAhead dist (find b) (find point) b = 2) ∧
    ((find b).back = (find b).front → whoIsAhead dist (find b) (find point) b = 1) := by
  constructor
  · intro hb hne
    unfold whoIsAhead
    rw [if_pos ⟨hf, hb⟩, if_neg hne, if_neg (not_lt.2 hmin)]
  · intro hb
    unfold whoIsAhead
    split_ifs with h1 h2 h3 h4
    · rfl
    · exact absurd hb.symm h2
    · exact absurd hb.symm h2
    · exact absurd hf (Nat.ne_of_lt h4)
    · rfl

end breakpoints

/-- The search along the straight line with vertices at the multiples of 10. -/
def straight (v : ℚ) : Closest ℚ :=
  ⟨v, (v / 10).floor.toNat, if v / 10 = (v / 10).floor then (v / 10).floor.toNat
    else (v / 10).floor.toNat + 1⟩

/-- C130 is false: a breakpoint at 8 is in force already at 2, in the same segment, and one at the vertex
10 is not yet in force at 12. -/
theorem C130_false :
    sizeAt (fun a b : ℚ => |a - b|) straight 2 [(0, 5), (8, 1)] = .ok 1 ∧
    sizeReached id 2 5 [((8 : ℚ), (1 : ℚ))] = 5 ∧
    sizeAt (fun a b : ℚ => |a - b|) straight 12 [(0, 5), (10, 1)] = .ok 5 ∧
    sizeReached id 12 5 [((10 : ℚ), (1 : ℚ))] = 1 := by
  refine ⟨?_, ?_, ?_, ?_⟩ <;> decide +kernel

/-- In the other segments the breakpoints are found. -/
example : sizeAt (fun a b : ℚ => |a - b|) straight 25 [(0, 5), (8, 1), (32, 7)] = .ok 1 := by
  decide +kernel

/-! ## C131: the ends of an open track -/

theorem between_range (n lo hi : Nat) (hhi : hi ≤ n) :
    List.range' lo (hi - lo) = (List.range n).filter fun i => lo ≤ i ∧ i < hi := by
  refine List.Pairwise.eq_of_mem_iff (r := (· < ·)) (List.pairwise_lt_range') (List.Pairwise.filter _ List.pairwise_lt_range) ?_
  intro a
  simp only [List.mem_range'_1, List.mem_filter, List.mem_range, decide_eq_true_eq]
  omega

/-- The coordinates of a boundary strictly between two points of it, whose positions are given twice. -/
def strictlyBetween {K : Type*} (coords : List (Coord K)) (lo hi : Nat) : List (Coord K) :=
  ((List.range coords.length).filter fun i => lo < 2 * i ∧ 2 * i < hi).filterMap (coords[·]?)

/-- C131, the part that holds: a trimmed boundary goes from the point closest to the start, through all
the coordinates strictly between it and the point closest to the finish, in order, to the latter. The
end points have altitude 0. -/
theorem C131_trim_partial {K : Type*} [Zero K] (coords : List (Coord K)) (start finish : Closest (Flat K))
    (hs : start.back = start.front ∨ start.back = start.front + 1)
    (hf : finish.back = finish.front ∨ finish.back = finish.front + 1)
    (hin : finish.back < coords.length) (hpos : 0 < finish.twice) :
    trimSide coords start finish = .ok
      (⟨start.point.1, start.point.2, 0⟩ :: strictlyBetween coords start.twice finish.twice
        ++ [⟨finish.point.1, finish.point.2, 0⟩]) := by
  unfold trimSide
  have hnz : ¬(finish.front = finish.back ∧ finish.front = 0) := by
    rintro ⟨h1, h2⟩
    unfold Closest.twice at hpos
    rw [if_pos h1, h2] at hpos
    omega
  simp only
  rw [if_neg hnz]
  set iS := if start.front = start.back then start.back + 1 else start.back with hiS
  set iF := if finish.front = finish.back then finish.front - 1 else finish.front with hiF
  have hiF' : iF + 1 ≤ coords.length := by
    rw [hiF]; split_ifs with h <;> omega
  have hfil : (List.range coords.length).filter (fun i => iS ≤ i ∧ i < iF + 1)
      = (List.range coords.length).filter fun i => start.twice < 2 * i ∧ 2 * i < finish.twice := by
    refine List.filter_congr fun i _ => ?_
    apply decide_eq_decide.2
    have e1 : iS ≤ i ↔ start.twice < 2 * i := by
      rw [hiS]; unfold Closest.twice
      split_ifs with h <;> omega
    have e2 : i < iF + 1 ↔ 2 * i < finish.twice := by
      rw [hiF]; unfold Closest.twice
      split_ifs with h
      · have : finish.front ≠ 0 := fun h0 => hnz ⟨h, h0⟩
        omega
      · omega
    rw [e1, e2]
  rw [between_range coords.length iS (iF + 1) hiF', hfil]
  have hmap : ∀ l : List Nat, (∀ i ∈ l, i < coords.length) →
      mapRes (fun i => idx coords i) l = .ok (l.filterMap (coords[·]?)) := by
    intro l
    induction l with
    | nil => intro _; rfl
    | cons i l ih =>
      intro h
      have hi := h i (by simp)
      simp only [mapRes, ih fun j hj => h j (by simp [hj])]
      simp [idx, hi, Res.bind]
  rw [hmap _ (fun i hi => by
    have := (List.mem_filter.1 hi).1
    exact List.mem_range.1 this), Res.bind_ok]
  rfl

/-- C131, for both boundaries: when start and finish are accepted, the left boundary is cut out of the left
coordinates and the right one out of the right ones. -/
theorem C131_both_sides_partial (findLeft findRight : Flat ℝ → Closest (Flat ℝ)) (left right : List (Coord ℝ))
    (start finish : Flat ℝ)
    (hout : ¬outside start (findLeft start).point (findRight start).point ∧
      ¬outside finish (findLeft finish).point (findRight finish).point)
    (hl : (findLeft start).front ≤ (findLeft finish).front) (hr : (findRight start).front ≤ (findRight finish).front)
    (hfl : ∀ p, (findLeft p).back = (findLeft p).front ∨ (findLeft p).back = (findLeft p).front + 1)
    (hfr : ∀ p, (findRight p).back = (findRight p).front ∨ (findRight p).back = (findRight p).front + 1)
    (hin : (findLeft finish).back < left.length ∧ (findRight finish).back < right.length)
    (hpos : 0 < (findLeft finish).twice ∧ 0 < (findRight finish).twice) :
    trim findLeft findRight left right start finish = .ok
      (⟨(findLeft start).point.1, (findLeft start).point.2, 0⟩
          :: strictlyBetween left (findLeft start).twice (findLeft finish).twice
          ++ [⟨(findLeft finish).point.1, (findLeft finish).point.2, 0⟩],
       ⟨(findRight start).point.1, (findRight start).point.2, 0⟩
          :: strictlyBetween right (findRight start).twice (findRight finish).twice
          ++ [⟨(findRight finish).point.1, (findRight finish).point.2, 0⟩]) := by
  unfold trim
  rw [if_neg hout.1, if_neg hout.2, if_neg (Nat.not_lt.2 hl), if_neg (Nat.not_lt.2 hr),
    C131_trim_partial left _ _ (hfl _) (hfl _) hin.1 hpos.1, Res.bind_ok,
    C131_trim_partial right _ _ (hfr _) (hfr _) hin.2 hpos.2, Res.bind_ok]

/-- C131. If the point closest to the finish is the first coordinate the behaviour is undefined. -/
theorem C131_undefined {K : Type*} [Zero K] (coords : List (Coord K)) (start finish : Closest (Flat K))
    (h1 : finish.front = 0) (h2 : finish.back = 0) : trimSide coords start finish = .ub := by
  unfold trimSide
  simp only
  rw [if_pos ⟨by rw [h1, h2], h1⟩]

/-- C131 is false with elevation: the ends of a boundary at altitude 100 are at altitude 0 after it is
trimmed. -/
theorem C131_false : ∃ out a b,
    trimSide [(⟨0, 0, 100⟩ : Coord ℚ), ⟨10, 0, 100⟩, ⟨20, 0, 100⟩] ⟨(5, 0), 0, 1⟩ ⟨(15, 0), 1, 2⟩
      = .ok out ∧ out.head? = some a ∧ out.getLast? = some b ∧ out.length = 3 ∧
    a.altitude = 0 ∧ b.altitude = 0 := by
  refine ⟨[⟨5, 0, 0⟩, ⟨10, 0, 100⟩, ⟨15, 0, 0⟩], _, _, ?_, rfl, rfl, rfl, rfl, rfl⟩
  decide +kernel

/-! ## C132: start and finish are checked -/

/-- C132. A start (or finish) between its closest points of both sides is not rejected. -/
theorem C132_inside (p left right : Flat ℝ) (t : ℝ) (h0 : 0 ≤ t) (h1 : t ≤ 1)
    (hp : p = (left.1 + t * (right.1 - left.1), left.2 + t * (right.2 - left.2))) :
    ¬outside p left right := by
  subst hp
  unfold outside
  simp only [dot2, not_lt]
  set x := right.1 - left.1
  set y := right.2 - left.2
  have hn : 0 ≤ x * x + y * y := add_nonneg (mul_self_nonneg _) (mul_self_nonneg _)
  have e1 : (left.1 + t * x - left.1) * (left.1 + t * x - left.1)
      + (left.2 + t * y - left.2) * (left.2 + t * y - left.2) = t ^ 2 * (x * x + y * y) := by ring
  have e2 : (left.1 + t * x - right.1) * (left.1 + t * x - right.1)
      + (left.2 + t * y - right.2) * (left.2 + t * y - right.2) = (1 - t) ^ 2 * (x * x + y * y) := by
    simp only [x, y]; ring
  have e3 : (left.1 + t * x - left.1) * (left.1 + t * x - right.1)
      + (left.2 + t * y - left.2) * (left.2 + t * y - right.2) = -(t * (1 - t) * (x * x + y * y)) := by
    simp only [x, y]; ring
  rw [e1, e2, e3, Real.sqrt_mul (sq_nonneg _), Real.sqrt_mul (sq_nonneg _), Real.sqrt_sq h0,
    Real.sqrt_sq (by linarith)]
  have hs := Real.mul_self_sqrt hn
  have : 0 ≤ t * (1 - t) * (x * x + y * y) := by
    have : 0 ≤ 1 - t := by linarith
    positivity
  nlinarith

/-- C132. A start (or finish) that has both sides in the same direction is rejected, when it is on neither
of them. -/
theorem C132_outside (p left right : Flat ℝ) (hl : p ≠ left) (hr : p ≠ right)
    (h : 0 ≤ (p.1 - left.1) * (p.1 - right.1) + (p.2 - left.2) * (p.2 - right.2)) :
    outside p left right := by
  have pos : ∀ q : Flat ℝ, p ≠ q →
      0 < Real.sqrt ((p.1 - q.1) * (p.1 - q.1) + (p.2 - q.2) * (p.2 - q.2)) := by
    intro q hq
    apply Real.sqrt_pos.2
    have hne : p.1 - q.1 ≠ 0 ∨ p.2 - q.2 ≠ 0 := by
      by_contra hc
      simp only [not_or, not_not] at hc
      exact hq (Prod.ext (by linarith [hc.1]) (by linarith [hc.2]))
    rcases hne with h1 | h1
    · have := mul_self_pos.2 h1
      linarith [mul_self_nonneg (p.2 - q.2)]
    · have := mul_self_pos.2 h1
      linarith [mul_self_nonneg (p.1 - q.1)]
  unfold outside
  simp only [dot2]
  have := mul_pos (pos left hl) (pos right hr)
  nlinarith

/-- C132, the part that holds: if the finish is in an earlier segment than the start on one of the sides,
or one of them is outside of the track, the request is rejected. -/
theorem C132_rejects_partial (findLeft findRight : Flat ℝ → Closest (Flat ℝ)) (left right : List (Coord ℝ))
    (start finish : Flat ℝ)
    (h : outside start (findLeft start).point (findRight start).point ∨
      outside finish (findLeft finish).point (findRight finish).point ∨
      (findLeft finish).front < (findLeft start).front ∨
      (findRight finish).front < (findRight start).front) :
    trim findLeft findRight left right start finish = .throw := by
  unfold trim
  rcases h with h | h | h | h
  · rw [if_pos h]
  · by_cases h1 : outside start (findLeft start).point (findRight start).point
    · rw [if_pos h1]
    · rw [if_neg h1, if_pos h]
  · by_cases h1 : outside start (findLeft start).point (findRight start).point
    · rw [if_pos h1]
    · rw [if_neg h1]
      split_ifs <;> rfl
  · by_cases h1 : outside start (findLeft start).point (findRight start).point
    · rw [if_pos h1]
    · rw [if_neg h1]
      split_ifs <;> rfl

/-- The search on the straight boundary at height `y` from 0 to 10. -/
def side (y : ℝ) (p : Flat ℝ) : Closest (Flat ℝ) := ⟨(p.1, y), 0, 1⟩

/-- C132 is false: a finish behind the start is accepted if they are in the same segment, and the trimmed
boundaries run backwards. -/
theorem C132_false :
    trim (side (-1)) (side 1) [⟨0, -1, 0⟩, ⟨10, -1, 0⟩] [⟨0, 1, 0⟩, ⟨10, 1, 0⟩] (8, 0) (2, 0)
      = .ok ([⟨8, -1, 0⟩, ⟨2, -1, 0⟩], [⟨8, 1, 0⟩, ⟨2, 1, 0⟩]) := by
  have ho : ∀ x : ℝ, ¬outside (x, 0) (x, -1) (x, 1) := by
    intro x
    refine C132_inside _ _ _ (1 / 2) (by norm_num) (by norm_num) ?_
    refine Prod.ext ?_ ?_ <;> norm_num
  have h8 : ¬outside (8, 0) (side (-1) (8, 0)).point (side 1 (8, 0)).point := ho 8
  have h2 : ¬outside (2, 0) (side (-1) (2, 0)).point (side 1 (2, 0)).point := ho 2
  unfold trim
  rw [if_neg h8, if_neg h2, if_neg (by simp [side]), if_neg (by simp [side])]
  rfl

end Verif.Mesh
