import Verif.Spec.PathSolve
import Verif.Props.PathGeometry
import Mathlib.Tactic.IntervalCases

/-! # Lemmas about computed minimum curvature paths -/

set_option autoImplicit false

namespace Verif.Path

open Verif.Road (Vec3)

/-- The variables of point `i` in a vector. -/
def varsOf (x : List ℝ) (i : Nat) : Vars ℝ :=
  ⟨x.getD (8 * i) 0, x.getD (8 * i + 1) 0, x.getD (8 * i + 2) 0, x.getD (8 * i + 3) 0,
   x.getD (8 * i + 4) 0, x.getD (8 * i + 5) 0, x.getD (8 * i + 6) 0⟩

/-- The path of a vector. -/
noncomputable def vecCourse (k : Circuit) (s x : List ℝ) : Course :=
  ⟨s.length,
   fun i => ⟨place (k.centre (s.getD i 0)) (normalVector (k.table (s.getD i 0)).yaw
      (k.table (s.getD i 0)).pitch (k.table (s.getD i 0)).roll) (x.getD (8 * i) 0), varsOf x i⟩,
   fun i => x.getD (8 * i + 7) 0⟩

theorem idx_getD {x : List ℝ} {i : Nat} (h : i < x.length) : idx x i = .ok (x.getD i 0) := by
  rw [idx_of_lt h]; simp [h]

theorem nElements_bounds (closed : Bool) (n : Nat) :
    nElements closed n ≤ n ∧ n ≤ nElements closed n + 1 := by
  unfold nElements; split <;> omega

theorem load_vars (closed : Bool) (n : Nat) (x : List ℝ)
    (hx : x.length = nVariables n (nElements closed n)) :
    load n (nElements closed n) x = .ok ((List.range n).map (varsOf x),
      (List.range (nElements closed n)).map fun i => x.getD (8 * i + 7) 0) := by
  have hE := nElements_bounds closed n
  unfold nVariables nameEnd at hx
  unfold load
  rw [mapRes_map (g := varsOf x), Res.bind_ok,
    mapRes_map (g := fun i => x.getD (8 * i + 7) 0)]
  · rfl
  · intro i hi
    have hi := List.mem_range.1 hi
    exact idx_getD (by simp only [nameEnd, Name.val]; omega)
  · intro i hi
    have hi := List.mem_range.1 hi
    unfold loadPoint
    simp only [nameEnd, Name.val, Nat.add_zero]
    rw [idx_getD (by omega), idx_getD (by omega), idx_getD (by omega), idx_getD (by omega),
      idx_getD (by omega), idx_getD (by omega), idx_getD (by omega)]
    rfl

theorem nodesAt_course (k : Circuit) (s x : List ℝ) :
    nodesAt k s ((List.range s.length).map (varsOf x)) = (vecCourse k s x).nodes := by
  refine List.ext_getElem (by simp [nodesAt, Course.nodes, vecCourse]) fun i h1 h2 => ?_
  have hi : i < s.length := by simpa [nodesAt] using h1
  simp [nodesAt, Course.nodes, vecCourse, hi, varsOf]

theorem fitness_course (closed : Bool) (k : Circuit) (s x : List ℝ) (hs : 0 < s.length)
    (hx : x.length = nVariables s.length (nElements closed s.length)) :
    ∃ cost rs, evaluate closed k.direction ((vecCourse k s x).lengths closed) (vecCourse k s x).nodes
        = .ok (cost, rs) ∧
      fitness closed k s x
        = .ok (cost :: rs, (vecCourse k s x).nodes, (vecCourse k s x).lengths closed) := by
  obtain ⟨cost, rs, h1, h2⟩ := C136_filled (vecCourse k s x) hs closed k.direction
  refine ⟨cost, rs, h1, ?_⟩
  unfold fitness
  rw [load_vars closed s.length x hx, Res.bind_ok]
  simp only [nodesAt_course]
  have e : (List.map (fun i => x.getD (8 * i + 7) 0) (List.range (nElements closed s.length)))
      = (vecCourse k s x).lengths closed := rfl
  rw [e, h2]
  rfl

theorem rows_within (tol ds : ℝ) (a b : Node) :
    (∀ r ∈ rows ds a b, |r| ≤ tol) ↔
      FollowsWithin tol (fun yaw pitch => heading yaw (-pitch)) 0 ds a b := by
  simp only [rows, List.mem_cons, List.not_mem_nil, or_false, forall_eq_or_imp, forall_eq, FollowsWithin,
    heading, Real.cos_neg, Real.sin_neg, neg_neg, add_zero]
  refine and_congr ?_ (and_congr ?_ (and_congr ?_ (and_congr ?_ (and_congr ?_ ?_)))) <;>
    refine iff_of_eq (congrArg (· ≤ tol) (congrArg _ ?_)) <;> ring

theorem closingRows_within (tol : ℝ) (direction : ℤ) (ds : ℝ) (a b : Node) :
    (∀ r ∈ closingRows direction ds a b, |r| ≤ tol) ↔
      FollowsWithin tol (fun yaw pitch => heading yaw (-pitch)) (2 * Real.pi * direction) ds a b := by
  simp only [closingRows, List.mem_cons, List.not_mem_nil, or_false, forall_eq_or_imp, forall_eq,
    FollowsWithin, heading, Real.cos_neg, Real.sin_neg, neg_neg]
  refine and_congr ?_ (and_congr ?_ (and_congr ?_ (and_congr ?_ (and_congr ?_ ?_)))) <;>
    refine iff_of_eq (congrArg (· ≤ tol) (congrArg _ ?_)) <;> ring

theorem continuous_iff (tol : ℝ) (c : Course) (hn : 0 < c.n) (closed : Bool) (k : Circuit) (cost : ℝ)
    (rs : List ℝ) (h : evaluate closed k.direction (c.lengths closed) c.nodes = .ok (cost, rs)) :
    c.Continuous tol closed k ↔ ∀ r ∈ rs, |r| ≤ tol := by
  have hin : (∀ r ∈ (List.range (c.n - 1)).flatMap fun j =>
      rows (c.ds j) (c.node j) (c.node (j + 1)), |r| ≤ tol) ↔
      ∀ i, i + 1 < c.n → FollowsWithin tol (fun yaw pitch => heading yaw (-pitch)) 0 (c.ds i)
        (c.node i) (c.node (i + 1)) := by
    simp only [List.mem_flatMap, List.mem_range, forall_exists_index, and_imp]
    constructor
    · intro h i hi
      exact (rows_within _ _ _ _).1 fun r hr => h r i (by omega) hr
    · intro h r i hi hr
      exact (rows_within _ _ _ _).2 (h i (by omega)) r hr
  unfold Course.Continuous
  cases closed with
  | false =>
    rw [evaluate_open c hn] at h
    obtain ⟨-, rfl⟩ := Prod.mk.inj (Res.ok.inj h)
    simp [← hin]
  | true =>
    rw [evaluate_closed c hn] at h
    obtain ⟨-, rfl⟩ := Prod.mk.inj (Res.ok.inj h)
    rw [← hin, ← closingRows_within]
    simp only [List.mem_append, forall_const, or_imp, forall_and]

theorem problem_eq (closed : Bool) (deg length : ℝ) (table : ℝ → Station ℝ) (s s' : List ℝ)
    (h : checkStations closed length s = .ok s') :
    ∃ xs xl xu, problem closed deg length table s = .ok (s', xs, xl, xu) ∧
      xs.length = nVariables s'.length (nElements closed s'.length) ∧
      (xl.length = nVariables s'.length (nElements closed s'.length) ∧
      (∀ (i : Nat) (a : ℝ), s'[i]? = some a → ∀ e ∈ pointEntries deg (table a),
        xl[nameEnd * i + e.1.val]? = some e.2.lower) ∧
      (∀ (i : Nat) (d : ℝ), (steps closed length s')[i]? = some d →
        xl[nameEnd * i + Name.delta.val]? = some (stepEntry d).lower)) ∧
      (xu.length = nVariables s'.length (nElements closed s'.length) ∧
      (∀ (i : Nat) (a : ℝ), s'[i]? = some a → ∀ e ∈ pointEntries deg (table a),
        xu[nameEnd * i + e.1.val]? = some e.2.upper) ∧
      (∀ (i : Nat) (d : ℝ), (steps closed length s')[i]? = some d →
        xu[nameEnd * i + Name.delta.val]? = some (stepEntry d).upper)) := by
  obtain ⟨xs, z1, z2, -, -⟩ := written closed deg length table s' Range.start
  obtain ⟨xl, a1, a2, a3, a4⟩ := written closed deg length table s' Range.lower
  obtain ⟨xu, b1, b2, b3, b4⟩ := written closed deg length table s' Range.upper
  refine ⟨xs, xl, xu, ?_, z2, ⟨a2, a3, a4⟩, b2, b3, b4⟩
  unfold problem
  rw [h]
  simp only [Res.bind_ok, z1, a1, b1]

theorem forall₂_getElem? {R : ℝ → ℝ → Prop} {l m : List ℝ} :
    List.Forall₂ R l m ↔ l.length = m.length ∧
      ∀ (j : Nat) (a b : ℝ), l[j]? = some a → m[j]? = some b → R a b := by
  rw [List.forall₂_iff_get]
  refine and_congr_right fun hl => ⟨fun h j a b ha hb => ?_, fun h j h1 h2 => ?_⟩
  · obtain ⟨h1, rfl⟩ := List.getElem?_eq_some_iff.1 ha
    obtain ⟨h2, rfl⟩ := List.getElem?_eq_some_iff.1 hb
    exact h j h1 h2
  · exact h j _ _ (List.getElem?_eq_getElem h1) (List.getElem?_eq_getElem h2)

theorem inRange_iff (tol : ℝ) (closed : Bool) (deg : ℝ) (k : Circuit) (s s' x xs xl xu : List ℝ)
    (h : checkStations closed k.length s = .ok s')
    (hp : problem closed deg k.length k.table s = .ok (s', xs, xl, xu))
    (hx : x.length = nVariables s'.length (nElements closed s'.length)) :
    Within tol xl x xu ↔ (vecCourse k s' x).InRange tol closed deg k s' := by
  obtain ⟨xs', xl', xu', q, -, ⟨a2, a3, a4⟩, b2, b3, b4⟩ := problem_eq closed deg k.length k.table s s' h
  rw [q] at hp
  simp only [Res.ok.injEq, Prod.mk.injEq, true_and] at hp
  obtain ⟨rfl, rfl, rfl⟩ := hp
  have hE := nElements_bounds closed s'.length
  have hget : ∀ j, j < x.length → x[j]? = some (x.getD j 0) := fun j hj => by simp [hj]
  unfold Within
  rw [forall₂_getElem?, forall₂_getElem?]
  have hN : nVariables s'.length (nElements closed s'.length)
      = 7 * s'.length + nElements closed s'.length := rfl
  rw [hN] at hx
  constructor
  · rintro ⟨⟨-, hl⟩, -, hu⟩
    constructor
    · intro i a ha
      have hi := (List.getElem?_eq_some_iff.1 ha).1
      have e1 := a3 i a ha
      have e2 := b3 i a ha
      simp only [pointEntries, List.mem_cons, List.not_mem_nil, or_false, forall_eq_or_imp,
        forall_eq, nameEnd, Name.val, Nat.add_zero] at e1 e2
      obtain ⟨f0, f1, f2, f3, f4, f5, f6⟩ := e1
      obtain ⟨g0, g1, g2, g3, g4, g5, g6⟩ := e2
      exact ⟨⟨hl _ _ _ f0 (hget _ (by omega)), hu _ _ _ (hget _ (by omega)) g0⟩,
        ⟨hl _ _ _ f1 (hget _ (by omega)), hu _ _ _ (hget _ (by omega)) g1⟩,
        ⟨hl _ _ _ f2 (hget _ (by omega)), hu _ _ _ (hget _ (by omega)) g2⟩,
        ⟨hl _ _ _ f3 (hget _ (by omega)), hu _ _ _ (hget _ (by omega)) g3⟩,
        ⟨hl _ _ _ f4 (hget _ (by omega)), hu _ _ _ (hget _ (by omega)) g4⟩,
        ⟨hl _ _ _ f5 (hget _ (by omega)), hu _ _ _ (hget _ (by omega)) g5⟩,
        ⟨hl _ _ _ f6 (hget _ (by omega)), hu _ _ _ (hget _ (by omega)) g6⟩⟩
    · intro i d hd
      have hi := (List.getElem?_eq_some_iff.1 hd).1
      rw [steps_length] at hi
      have e1 := a4 i d hd
      have e2 := b4 i d hd
      simp only [nameEnd, Name.val] at e1 e2
      exact ⟨hl _ _ _ e1 (hget _ (by omega)), hu _ _ _ (hget _ (by omega)) e2⟩
  · rintro ⟨hp, hd⟩
    have key : ∀ j < x.length, ∃ lo hi, xl'[j]? = some lo ∧ xu'[j]? = some hi ∧
        lo - tol ≤ x.getD j 0 ∧ x.getD j 0 ≤ hi + tol := by
      intro j hj
      have hdiv : j = 8 * (j / 8) + j % 8 := by omega
      by_cases h7 : j % 8 = 7
      · have hlt : j / 8 < (steps closed k.length s').length := by rw [steps_length]; omega
        have hg := List.getElem?_eq_getElem hlt
        have e1 := a4 _ _ hg
        have e2 := b4 _ _ hg
        have e3 := hd _ _ hg
        simp only [nameEnd, Name.val, vecCourse] at e1 e2 e3
        rw [← h7, ← hdiv] at e1 e2 e3
        exact ⟨_, _, e1, e2, e3⟩
      · have hlt : j / 8 < s'.length := by omega
        have hg := List.getElem?_eq_getElem hlt
        have e1 := a3 _ _ hg
        have e2 := b3 _ _ hg
        have e3 := hp _ _ hg
        simp only [pointEntries, List.mem_cons, List.not_mem_nil, or_false, forall_eq_or_imp,
          forall_eq, nameEnd, Name.val, Nat.add_zero] at e1 e2
        obtain ⟨f0, f1, f2, f3, f4, f5, f6⟩ := e1
        obtain ⟨g0, g1, g2, g3, g4, g5, g6⟩ := e2
        obtain ⟨p0, p1, p2, p3, p4, p5, p6⟩ := e3
        simp only [vecCourse, varsOf, least, most] at p0 p1 p2 p3 p4 p5 p6
        have h8 : j % 8 < 7 := by omega
        generalize hm : j % 8 = m at h8 hdiv
        rw [hdiv]
        generalize j / 8 = q at *
        interval_cases m
        · exact ⟨_, _, f0, g0, p0⟩
        · exact ⟨_, _, f1, g1, p1⟩
        · exact ⟨_, _, f2, g2, p2⟩
        · exact ⟨_, _, f3, g3, p3⟩
        · exact ⟨_, _, f4, g4, p4⟩
        · exact ⟨_, _, f5, g5, p5⟩
        · exact ⟨_, _, f6, g6, p6⟩
    refine ⟨⟨by rw [a2, hx, hN], ?_⟩, by rw [b2, hx, hN], ?_⟩
    · intro j a b ha hb
      have hj := (List.getElem?_eq_some_iff.1 hb).1
      obtain ⟨lo, hi, e1, -, e3, -⟩ := key j hj
      rw [ha] at e1; rw [hget j hj] at hb
      obtain rfl := Option.some.inj e1
      obtain rfl := Option.some.inj hb
      exact e3
    · intro j a b ha hb
      have hj := (List.getElem?_eq_some_iff.1 ha).1
      obtain ⟨lo, hi, -, e2, -, e4⟩ := key j hj
      rw [hb] at e2; rw [hget j hj] at ha
      obtain rfl := Option.some.inj e2
      obtain rfl := Option.some.inj ha
      exact e4

/-- Two paths with the same points and elements. -/
def Same (closed : Bool) (c d : Course) : Prop :=
  c.n = d.n ∧ (∀ i < c.n, c.node i = d.node i) ∧ ∀ i < nElements closed c.n, c.ds i = d.ds i

theorem Same.lists {closed : Bool} {c d : Course} (h : Same closed c d) :
    c.nodes = d.nodes ∧ c.lengths closed = d.lengths closed := by
  obtain ⟨h1, h2, h3⟩ := h
  unfold Course.nodes Course.lengths
  rw [← h1]
  exact ⟨List.map_congr_left fun i hi => h2 i (List.mem_range.1 hi),
    List.map_congr_left fun i hi => h3 i (List.mem_range.1 hi)⟩

theorem Same.inRange {closed : Bool} {c d : Course} (h : Same closed c d) {tol deg : ℝ} {k : Circuit}
    {s : List ℝ} (hs : c.n = s.length) (hc : c.InRange tol closed deg k s) :
    d.InRange tol closed deg k s := by
  obtain ⟨h1, h2, h3⟩ := h
  refine ⟨fun i a ha => ?_, fun i e he => ?_⟩
  · rw [← h2 i (by rw [hs]; exact (List.getElem?_eq_some_iff.1 ha).1)]
    exact hc.1 i a ha
  · have := (List.getElem?_eq_some_iff.1 he).1
    rw [steps_length] at this
    rw [← h3 i (by rw [hs]; exact this)]
    exact hc.2 i e he

theorem Same.symm {closed : Bool} {c d : Course} (h : Same closed c d) : Same closed d c :=
  ⟨h.1.symm, fun i hi => (h.2.1 i (by rw [h.1]; exact hi)).symm,
    fun i hi => (h.2.2 i (by rw [h.1]; exact hi)).symm⟩

theorem evaluates (c : Course) (hn : 0 < c.n) (closed : Bool) (k : Circuit) :
    ∃ cost rs, evaluate closed k.direction (c.lengths closed) c.nodes = .ok (cost, rs) := by
  cases closed with
  | false => exact ⟨_, _, evaluate_open c hn _⟩
  | true => exact ⟨_, _, evaluate_closed c hn _⟩

theorem Same.continuous {closed : Bool} {c d : Course} (h : Same closed c d) {tol : ℝ} {k : Circuit}
    (hn : 0 < c.n) (hc : c.Continuous tol closed k) : d.Continuous tol closed k := by
  obtain ⟨cost, rs, he⟩ := evaluates c hn closed k
  rw [continuous_iff tol c hn closed k cost rs he] at hc
  rw [h.lists.1, h.lists.2] at he
  exact (continuous_iff tol d (by rw [← h.1]; exact hn) closed k cost rs he).2 hc

/-- Variable `m` of point `i`. -/
def fieldOf (c : Course) (i : Nat) : Nat → ℝ
  | 0 => (c.node i).v.n
  | 1 => (c.node i).v.yaw
  | 2 => (c.node i).v.pitch
  | 3 => (c.node i).v.roll
  | 4 => (c.node i).v.yawDot
  | 5 => (c.node i).v.pitchDot
  | 6 => (c.node i).v.rollDot
  | _ => c.ds i

/-- The vector of a path. -/
def pack (closed : Bool) (c : Course) : List ℝ :=
  (List.range (nVariables c.n (nElements closed c.n))).map fun j => fieldOf c (j / 8) (j % 8)

theorem pack_length (closed : Bool) (c : Course) :
    (pack closed c).length = nVariables c.n (nElements closed c.n) := by simp [pack]

theorem pack_getD (closed : Bool) (c : Course) (i m : Nat) (hm : m < 8)
    (h : 8 * i + m < nVariables c.n (nElements closed c.n)) :
    (pack closed c).getD (8 * i + m) 0 = fieldOf c i m := by
  have e1 : (8 * i + m) % 8 = m := by omega
  have e2 : (8 * i + m) / 8 = i := by omega
  have hl : 8 * i + m < (pack closed c).length := by rw [pack_length]; exact h
  rw [List.getD_eq_getElem?_getD, List.getElem?_eq_getElem hl, Option.getD_some]
  simp only [pack, List.getElem_map, List.getElem_range, e1, e2]

theorem pack_same (closed : Bool) (k : Circuit) (s : List ℝ) (c : Course) (hc : c.OnSections k s) :
    Same closed (vecCourse k s (pack closed c)) c := by
  have hE := nElements_bounds closed c.n
  have hN : nVariables c.n (nElements closed c.n) = 7 * c.n + nElements closed c.n := rfl
  refine ⟨hc.1.symm, fun i hi => ?_, fun i hi => ?_⟩
  · have hi : i < s.length := hi
    have hi' : i < c.n := by rw [hc.1]; exact hi
    have e0 := pack_getD closed c i 0 (by omega) (by omega)
    have e1 := pack_getD closed c i 1 (by omega) (by omega)
    have e2 := pack_getD closed c i 2 (by omega) (by omega)
    have e3 := pack_getD closed c i 3 (by omega) (by omega)
    have e4 := pack_getD closed c i 4 (by omega) (by omega)
    have e5 := pack_getD closed c i 5 (by omega) (by omega)
    have e6 := pack_getD closed c i 6 (by omega) (by omega)
    simp only [Nat.add_zero, fieldOf] at e0 e1 e2 e3 e4 e5 e6
    have hpos := hc.2 i s[i] (List.getElem?_eq_getElem hi)
    have hg : s.getD i 0 = s[i] := by simp [hi]
    simp only [vecCourse, varsOf, e0, e1, e2, e3, e4, e5, e6, hg]
    rw [← hpos]
  · have hi : i < nElements closed s.length := hi
    rw [← hc.1] at hi
    have e7 := pack_getD closed c i 7 (by omega) (by omega)
    simpa only [vecCourse, fieldOf] using e7

theorem exported_same (closed : Bool) (a : Answer) (s : List ℝ) (c : Course) (hs : c.n = s.length) :
    Same closed c (exported a s c.nodes (c.lengths closed)).course := by
  refine ⟨hs, fun i hi => ?_, fun i hi => ?_⟩
  · have : c.nodes[i]? = some (c.node i) := by simp [Course.nodes, hi]
    simp only [exported, Result.course, List.getD_eq_getElem?_getD, List.getElem?_map, this,
      Option.map_some, Option.getD_some]
  · simp [exported, Result.course, Course.lengths, hi]

end Verif.Path
