import Verif.Lemmas.Centreline

/-! The first estimate of the centreline: C200 (halfway between the boundaries) and C201 (its
arclength). -/

set_option autoImplicit false

namespace Verif.Fit

open Verif.Road (Vec3)
open Verif.Preprocessor (len)

/-- C200. The cross-sections of the estimate: nodes along the measured right boundary from its first point
on, at increasing arclengths (equal steps if a number of elements is asked for), up to its last point in
an open circuit and before the start line in a closed one, each with a point of the left boundary. -/
theorem C200_cross_sections (lib : Library) (hlin : Interpolates lib.linear)
    (hfind : FindsOnLine lib.find) (closed : Bool) (ratio dmax : ℝ) (how : Meshing)
    (left right : List Vec3) (hl : 2 ≤ left.length) (hr : 2 ≤ right.length)
    (hmov : Moving (vertices closed right))
    (hs : Suits how ratio (perimeter (vertices closed right))) :
    ∃ (fuel : Nat) (pairs : List (Vec3 × Vec3)) (nodes : List ℝ),
      sampled lib closed ratio dmax how left right fuel = some (.ok pairs) ∧
      pairs ≠ [] ∧ nodes.length = pairs.length ∧ nodes.head? = some 0 ∧ nodes.Pairwise (· < ·) ∧
      (closed = false → nodes.getLast? = some (perimeter (vertices closed right))) ∧
      (closed = true → ∀ s ∈ nodes, s < perimeter (vertices closed right)) ∧
      (∀ n, how = .equispaced n → pairs.length = (if closed then n else n + 1) ∧
        ∀ (i : Nat) (s : ℝ), nodes[i]? = some s → s = perimeter (vertices closed right) * i / n) ∧
      ∀ (i : Nat) (s : ℝ) (a b : Vec3), nodes[i]? = some s → pairs[i]? = some (a, b) →
        PointAt (vertices closed right) s a ∧ OnLine (vertices closed left) b := by
  have hne : right ≠ [] := by rintro rfl; simp at hr
  have hv2 : 2 ≤ (vertices closed right).length := by
    rw [vertices_length closed right hne]; split <;> omega
  have hvne : vertices closed right ≠ [] := by intro h; rw [h] at hv2; simp at hv2
  have hL := perimeter_pos hv2 hmov
  obtain ⟨fuel, m, hm, hp, heq⟩ := along_proper lib closed ratio how (vertices closed right) id _ hL
    (lib.linear (Mesh.arclengthsFrom distance 0 (vertices closed right)) (vertices closed right)) hs
  obtain ⟨k1, k2, k3, k4, k5, k6⟩ := hp.kept closed
  set kept := dropClosing closed m with hkept
  refine ⟨fuel, (kept.map Prod.snd).zip ((follow (fun p i => lib.find left p closed i dmax) 0
    (kept.map Prod.snd)).map Prod.fst), kept.map Prod.fst, ?_, ?_, ?_, k2, k3, k4, k5, ?_, ?_⟩
  · unfold sampled
    cases right with
    | nil => exact absurd rfl hne
    | cons a l =>
      simp only [closeLine_eq closed (a :: l) hne, andThen]
      rw [lengthOf_arclengths _ hvne, hm]
  · intro h
    have := congrArg List.length h
    simp only [List.length_zip, List.length_map, follow_length, Nat.min_self, List.length_nil] at this
    exact k1 (List.length_eq_zero_iff.1 this)
  · simp [follow_length]
  · rintro n rfl
    have e := hkept.trans ((congrArg (dropClosing closed) (heq n rfl)).trans
      (dropClosing_linspace closed _ n _))
    refine ⟨?_, fun i s hi => ?_⟩
    · simp [follow_length, e]
    · rw [e, List.map_map, List.getElem?_map] at hi
      obtain ⟨i', hi', rfl⟩ := Option.map_eq_some_iff.1 hi
      obtain ⟨-, rfl⟩ := List.getElem?_eq_some_iff.1 hi'
      simp
  · intro i s a b hi hab
    obtain ⟨ha, hb⟩ := List.getElem?_zip_eq_some.1 hab
    rw [List.getElem?_map] at hi ha
    obtain ⟨x, hx, rfl⟩ := Option.map_eq_some_iff.1 hi
    obtain ⟨x', hx', rfl⟩ := Option.map_eq_some_iff.1 ha
    obtain rfl : x = x' := by rw [hx] at hx'; exact Option.some.inj hx'
    obtain ⟨h1, h2, h3⟩ := k6 x (List.mem_of_getElem? hx)
    constructor
    · obtain ⟨j, t, ht0, ht1, harc, -, hdiv⟩ := linear_divides hlin _ hv2 hmov x.1 h2 h3
      rw [h1]
      exact ⟨j, t, ht0, ht1, hdiv _ rfl, harc⟩
    · obtain ⟨i', hi'⟩ := follow_get (fun p i => lib.find left p closed i dmax) (kept.map Prod.snd) 0 i x.2
        (by rw [List.getElem?_map, hx]; rfl)
      rw [List.getElem?_map, hi'] at hb
      obtain rfl : _ = b := Option.some.inj hb
      exact (hfind left x.2 closed i' dmax hl).1

/-- C200. The estimate runs halfway between the two boundaries: at each of its points, one half-width to
the right is on the line through the right points of the cross-sections, and one half-width to the left
at the same place of the line through their left points. Its arclength is that of the line through the
midpoints, it begins at 0, increases and ends with the line (equal steps if a number of elements is asked
for). -/
theorem C200_halfway (lib : Library) (hlin : Interpolates lib.linear) (closed : Bool) (ratio dmax : ℝ)
    (how : Meshing) (left right : List Vec3) (fuel : Nat) (pairs : List (Vec3 × Vec3))
    (hp : sampled lib closed ratio dmax how left right fuel = some (.ok pairs))
    (mids : List Vec3) (hmids : mids = vertices closed (pairs.map fun p => (1 / 2 : ℝ) • (p.1 + p.2)))
    (h2 : 2 ≤ mids.length) (hmov : Moving mids) (hs : Suits how ratio (perimeter mids)) :
    ∃ fuel' c, averaged lib closed ratio dmax how left right fuel' = some (.ok c) ∧
      c.r.length = c.s.length ∧ c.toRight.length = c.s.length ∧ c.length = perimeter mids ∧
      c.s.head? = some 0 ∧ c.s.Pairwise (· < ·) ∧
      (closed = false → c.s.getLast? = some c.length) ∧ (closed = true → ∀ s ∈ c.s, s < c.length) ∧
      (∀ n, how = .equispaced n → c.s.length = (if closed then n else n + 1) ∧
        ∀ (i : Nat) (s : ℝ), c.s[i]? = some s → s = c.length * i / n) ∧
      ∀ (i : Nat) (s : ℝ) (p h : Vec3), c.s[i]? = some s → c.r[i]? = some p → c.toRight[i]? = some h →
        ∃ (j : Nat) (t : ℝ), 0 ≤ t ∧ t ≤ 1 ∧ Arclength mids j t s ∧ Divides mids j t p ∧
          Divides (vertices closed (pairs.map Prod.fst)) j t (p + h) ∧
          Divides (vertices closed (pairs.map Prod.snd)) j t (p - h) := by
  have hne : pairs ≠ [] := by
    rintro rfl
    rw [hmids] at h2
    cases closed <;> simp [vertices] at h2
  have hmid : pairs.map middle = pairs.map fun p => (1 / 2 : ℝ) • (p.1 + p.2) := by
    refine List.map_congr_left fun p _ => ?_
    rw [middle, add_comm]
  have hmne : pairs.map middle ≠ [] := by simpa using hne
  have hhne : pairs.map half ≠ [] := by simpa using hne
  have hmv : vertices closed (pairs.map middle) = mids := by rw [hmid, hmids]
  have hmids0 : mids ≠ [] := by intro h; rw [h] at h2; simp at h2
  have hL := perimeter_pos h2 hmov
  obtain ⟨fuel2, m, hm, hpr, heq⟩ := along_proper lib closed ratio how mids Prod.fst _ hL
    (fun x => (lib.linear (Mesh.arclengthsFrom distance 0 mids) mids x,
      lib.linear (Mesh.arclengthsFrom distance 0 mids) (vertices closed (pairs.map half)) x)) hs
  obtain ⟨k1, k2, k3, k4, k5, k6⟩ := hpr.kept closed
  have hlast : lengthOf (m.map Prod.fst) = perimeter mids := by
    unfold lengthOf
    rw [List.getLastD_eq_getLast?, hpr.last]; rfl
  have hlength : (match how with
      | .equispaced _ => lengthOf (Mesh.arclengthsFrom distance 0 mids)
      | _ => lengthOf (m.map Prod.fst)) = perimeter mids := by
    cases how
    · exact lengthOf_arclengths mids hmids0
    · exact hlast
    · exact hlast
  set kept := dropClosing closed m with hkept
  refine ⟨fuel + fuel2, ⟨kept.map Prod.fst, kept.map fun p => p.2.1, kept.map fun p => p.2.2,
    perimeter mids⟩, ?_, by simp, by simp, rfl, k2, k3, k4, k5, ?_, ?_⟩
  · have h1 : sampled lib closed ratio dmax how left right (fuel + fuel2) = some (.ok pairs) := by
      unfold sampled at hp ⊢
      cases right with
      | nil => exact hp
      | cons a l =>
        exact andThen_fuel hp (fun a h => h) fun line r h =>
          andThen_fuel h (fun a h => along_fuel _ _ _ _ _ _ _ _ _ _ _ h) fun a b h => h
    have h3 := along_fuel lib closed ratio how mids Prod.fst _ _ fuel2 fuel _ hm
    rw [Nat.add_comm fuel2] at h3
    unfold averaged
    rw [h1]
    simp only [andThen, recentred, closeLine_eq closed _ hmne, closeLine_eq closed _ hhne, hmv]
    rw [lengthOf_arclengths mids hmids0, h3]
    simp only
    rw [← hlength]
    cases how <;> simp only [lengthOf_arclengths mids hmids0] <;> rfl
  · rintro n rfl
    have e := hkept.trans ((congrArg (dropClosing closed) (heq n rfl)).trans
      (dropClosing_linspace closed _ n _))
    refine ⟨by simp [e], fun i s hi => ?_⟩
    simp only at hi
    rw [e, List.map_map, List.getElem?_map] at hi
    obtain ⟨i', hi', rfl⟩ := Option.map_eq_some_iff.1 hi
    obtain ⟨-, rfl⟩ := List.getElem?_eq_some_iff.1 hi'
    simp
  · intro i s p h hi hip hih
    simp only [List.getElem?_map] at hi hip hih
    obtain ⟨x, hx, rfl⟩ := Option.map_eq_some_iff.1 hi
    rw [hx] at hip hih
    obtain rfl : x.2.1 = p := by simpa using hip
    obtain rfl : x.2.2 = h := by simpa using hih
    obtain ⟨h1, h3, h4⟩ := k6 x (List.mem_of_getElem? hx)
    obtain ⟨j, t, ht0, ht1, harc, hj, hdiv⟩ := linear_divides hlin mids h2 hmov x.1 h3 h4
    have hlen : ∀ f : Vec3 × Vec3 → Vec3, (vertices closed (pairs.map f)).length = mids.length := by
      intro f
      rw [hmids, vertices_map, vertices_map, List.length_map, List.length_map]
    have hd1 := hdiv mids rfl
    have hd2 := hdiv (vertices closed (pairs.map half)) (hlen half)
    have e1 : x.2.1 = lib.linear (Mesh.arclengthsFrom distance 0 mids) mids x.1 := by rw [h1]
    have e2 : x.2.2 = lib.linear (Mesh.arclengthsFrom distance 0 mids)
        (vertices closed (pairs.map half)) x.1 := by rw [h1]
    rw [← e1] at hd1
    rw [← e2] at hd2
    refine ⟨j, t, ht0, ht1, harc, hd1, ?_, ?_⟩
    all_goals
      obtain ⟨a, b, ha, hb, hab⟩ := hd1
      obtain ⟨a', b', ha', hb', hab'⟩ := hd2
      rw [← hmv, vertices_map, List.getElem?_map] at ha hb
      rw [vertices_map, List.getElem?_map] at ha' hb'
      obtain ⟨v, hv, rfl⟩ := Option.map_eq_some_iff.1 ha
      obtain ⟨w, hw, rfl⟩ := Option.map_eq_some_iff.1 hb
      rw [hv] at ha'
      rw [hw] at hb'
      obtain rfl : half v = a' := by simpa using ha'
      obtain rfl : half w = b' := by simpa using hb'
    · refine ⟨v.1, w.1, by rw [vertices_map, List.getElem?_map, hv]; rfl,
        by rw [vertices_map, List.getElem?_map, hw]; rfl, ?_⟩
      rw [hab, hab']
      unfold middle half
      module
    · refine ⟨v.2, w.2, by rw [vertices_map, List.getElem?_map, hv]; rfl,
        by rw [vertices_map, List.getElem?_map, hw]; rfl, ?_⟩
      rw [hab, hab']
      unfold middle half
      module

/-- C200. The outcome does not depend on the number of rounds the loops are given, once they have
ended. -/
theorem C200_fuel (lib : Library) (closed : Bool) (ratio dmax : ℝ) (how : Meshing)
    (left right : List Vec3) (fuel more : Nat) (r : Res Centerline)
    (h : averaged lib closed ratio dmax how left right fuel = some r) :
    averaged lib closed ratio dmax how left right (fuel + more) = some r := by
  unfold averaged at h ⊢
  refine andThen_fuel h (fun a h => ?_) fun pairs b h => ?_
  · unfold sampled at h ⊢
    cases right with
    | nil => exact h
    | cons x l =>
      exact andThen_fuel h (fun a h => h) fun line r h =>
        andThen_fuel h (fun a h => along_fuel _ _ _ _ _ _ _ _ _ _ _ h) fun a b h => h
  · unfold recentred at h ⊢
    exact andThen_fuel h (fun a h => h) fun mids r h => andThen_fuel h (fun a h => h) fun halves r h =>
      andThen_fuel h (fun a h => along_fuel _ _ _ _ _ _ _ _ _ _ _ h) fun a b h => h

/-- C201. No two points of the estimate are farther from each other than their arclengths say, and in a
closed circuit the rest of the length reaches back to the first point. -/
theorem C201_arclength (lib : Library) (hlin : Interpolates lib.linear) (closed : Bool) (ratio dmax : ℝ)
    (how : Meshing) (left right : List Vec3) (fuel : Nat) (pairs : List (Vec3 × Vec3))
    (hp : sampled lib closed ratio dmax how left right fuel = some (.ok pairs))
    (mids : List Vec3) (hmids : mids = vertices closed (pairs.map fun p => (1 / 2 : ℝ) • (p.1 + p.2)))
    (h2 : 2 ≤ mids.length) (hmov : Moving mids) (hs : Suits how ratio (perimeter mids))
    (fuel' : Nat) (c : Centerline)
    (hc : averaged lib closed ratio dmax how left right fuel' = some (.ok c)) :
    (∀ (i i' : Nat) (s s' : ℝ) (p p' : Vec3), i ≤ i' → c.s[i]? = some s → c.s[i']? = some s' →
      c.r[i]? = some p → c.r[i']? = some p' → len (p' - p) ≤ s' - s) ∧
    (closed = true → ∀ (i : Nat) (s : ℝ) (p p₀ : Vec3), c.s[i]? = some s → c.r[i]? = some p →
      c.r[0]? = some p₀ → len (p₀ - p) ≤ c.length - s) := by
  obtain ⟨f2, c', hc', hr, ht, hlen, h0, hinc, hopen, hclosed, -, hpt⟩ :=
    C200_halfway lib hlin closed ratio dmax how left right fuel pairs hp mids hmids h2 hmov hs
  obtain rfl : c = c' := by
    have e1 := C200_fuel lib closed ratio dmax how left right fuel' f2 _ hc
    have e2 := C200_fuel lib closed ratio dmax how left right f2 fuel' _ hc'
    rw [Nat.add_comm, e1] at e2
    exact Res.ok.inj (Option.some.inj e2)
  have hat : ∀ (i : Nat) (s : ℝ) (p : Vec3), c.s[i]? = some s → c.r[i]? = some p → PointAt mids s p := by
    intro i s p hi hpi
    have hil := (List.getElem?_eq_some_iff.1 hi).1
    obtain ⟨j, t, a1, a2, a3, a4, -⟩ := hpt i s p _ hi hpi
      (List.getElem?_eq_getElem (by rw [ht]; exact hil))
    exact ⟨j, t, a1, a2, a4, a3⟩
  constructor
  · intro i i' s s' p p' hii hs1 hs2 hp1 hp2
    refine chord_le (hat i s p hs1 hp1) (hat i' s' p' hs2 hp2) ?_
    rcases hii.lt_or_eq with h | rfl
    · obtain ⟨k1, rfl⟩ := List.getElem?_eq_some_iff.1 hs1
      obtain ⟨k2, rfl⟩ := List.getElem?_eq_some_iff.1 hs2
      exact (List.pairwise_iff_getElem.1 hinc i i' k1 k2 h).le
    · rw [hs1] at hs2; exact (Option.some.inj hs2).le
  · rintro rfl i s p p₀ hi hpi hp0
    have hs0 : c.s[0]? = some 0 := by rw [← List.head?_eq_getElem?]; exact h0
    have hne : pairs ≠ [] := by rintro rfl; rw [hmids] at h2; simp [vertices] at h2
    -- the first vertex is also the last one
    obtain ⟨q, l, hq⟩ : ∃ q l, pairs = q :: l := by
      cases pairs with
      | nil => exact absurd rfl hne
      | cons q l => exact ⟨q, l, rfl⟩
    set v : Vec3 := (1 / 2 : ℝ) • (q.1 + q.2) with hv
    have hm0 : mids[0]? = some v := by rw [hmids, hq]; simp [vertices, hv]
    have hml : mids[mids.length - 1]? = some v := by
      rw [← List.getLast?_eq_getElem?, hmids, hq]
      simp only [vertices, if_true, List.map_cons, List.take_succ_cons, List.take_zero]
      exact List.getLast?_concat
    have hlt : mids.length - 2 + 1 = mids.length - 1 := by omega
    have hy : mids[mids.length - 2]? = some mids[mids.length - 2] := List.getElem?_eq_getElem (by omega)
    have hx : mids[1]? = some mids[1] := List.getElem?_eq_getElem (by omega)
    have hstart : PointAt mids 0 v := by
      refine ⟨0, 0, le_rfl, zero_le_one, ⟨v, _, hm0, hx, by simp⟩, ⟨v, _, hm0, hx, ?_⟩⟩
      cases mids with
      | nil => simp at h2
      | cons a l => simp [perimeter]
    have hend : PointAt mids (perimeter mids) v := by
      refine ⟨mids.length - 2, 1, zero_le_one, le_rfl,
        ⟨_, v, hy, by rw [hlt]; exact hml, by simp⟩, ⟨_, v, hy, by rw [hlt]; exact hml, ?_⟩⟩
      have := perimeter_take_succ mids (mids.length - 2) _ v hy (by rw [hlt]; exact hml)
      rw [show mids.length - 2 + 2 = mids.length by omega, List.take_length] at this
      rw [this, one_mul]
    have h1 := chord_le hstart (hat 0 0 p₀ hs0 hp0) le_rfl
    have hp0v : v = p₀ := by
      by_contra hcon
      have := len_pos hcon
      linarith
    rw [← hp0v, hlen]
    exact chord_le (hat i s p hi hpi) hend (by
      rw [← hlen]; exact (hclosed rfl s (List.mem_of_getElem? hi)).le)

/-! ### A concrete case -/

/-- A polynomial of degree one. -/
noncomputable def exLinear : List ℝ → List Vec3 → ℝ → Vec3
  | a :: b :: s, p :: q :: r, x =>
    if x ≤ b then p + ((x - a) / (b - a)) • (q - p) else exLinear (b :: s) (q :: r) x
  | _, _, _ => 0

theorem exLinear_interpolates : Interpolates exLinear := by
  intro s r hlen hinc j
  induction j generalizing s r with
  | zero =>
    intro a b p q ha hb hp hq x hx1 hx2
    match s, r with
    | a' :: b' :: s, p' :: q' :: r =>
      simp only [List.getElem?_cons_zero, Option.some.injEq, zero_add, List.getElem?_cons_succ] at ha hb hp hq
      subst ha hb hp hq
      rw [exLinear, if_pos hx2]
    | [], _ => simp at ha
    | [_], _ => simp at hb
    | _ :: _ :: _, [] => simp at hp
    | _ :: _ :: _, [_] => simp at hq
  | succ j ih =>
    intro a b p q ha hb hp hq x hx1 hx2
    match s, r with
    | a' :: b' :: s, p' :: q' :: r =>
      simp only [List.getElem?_cons_succ] at ha hb hp hq
      have hin' := (List.pairwise_cons.1 hinc).2
      have hrec := ih (b' :: s) (q' :: r) (by simpa using hlen) hin' a b p q ha hb hp hq x hx1 hx2
      rw [exLinear]
      split
      · next hle =>
        have hba : b' ≤ a := by
          rcases List.mem_cons.1 (List.mem_of_getElem? ha) with h | h
          · exact h.ge
          · exact ((List.pairwise_cons.1 hin').1 a h).le
        have hxa : x = b' := le_antisymm hle (hba.trans hx1)
        have hab : a = b' := le_antisymm (hx1.trans hle) hba
        have hj : j = 0 := by
          by_contra hj
          obtain ⟨k, hk⟩ := List.getElem?_eq_some_iff.1 ha
          have := List.pairwise_iff_getElem.1 hin' 0 j (by simp) k (by omega)
          rw [hk] at this
          simp only [List.getElem_cons_zero] at this
          linarith
        subst hj hxa
        obtain rfl : q' = p := by simpa using hp
        have hlt : a' < x := (List.pairwise_cons.1 hinc).1 x (by simp)
        rw [hab, sub_self, zero_div, zero_smul, add_zero, div_self (by linarith), one_smul]
        abel
      · exact hrec
    | [], _ => simp at ha
    | [_], _ => simp at ha
    | _ :: _ :: _, [] => simp at hp
    | _ :: _ :: _, [_] => simp at hp

/-- A search that looks at the first vertex only. -/
noncomputable def exFind (line : List Vec3) (p : Vec3) (_ : Bool) (_ : Nat) (_ : ℝ) :
    Vec3 × ℝ × Nat × Nat :=
  (line.headD 0, len (line.headD 0 - p) ^ 2, 0, 0)

theorem exFind_onLine : FindsOnLine exFind := by
  intro line p closed i d h
  refine ⟨?_, rfl⟩
  match line, h with
  | a :: b :: l, _ =>
    exact ⟨0, 0, le_rfl, zero_le_one, a, b, by cases closed <;> rfl, by cases closed <;> rfl, by simp [exFind]⟩

/-- The library of the examples. -/
noncomputable def exLibrary : Library := ⟨exFind, exLinear, id, fun _ => 0⟩

/-- A straight piece of road, ten metres long and four wide. -/
def exLeft : List Vec3 := [(0, 0, 0), (10, 0, 0)]

@[inherit_doc exLeft]
def exRight : List Vec3 := [(0, 4, 0), (10, 4, 0)]

theorem len_ten : len ((10, 0, 0) : Vec3) = 10 := by
  unfold len Road.dot
  rw [show ((10 : ℝ), (0 : ℝ), (0 : ℝ)).1 * ((10 : ℝ), (0 : ℝ), (0 : ℝ)).1
    + ((10 : ℝ), (0 : ℝ), (0 : ℝ)).2.1 * ((10 : ℝ), (0 : ℝ), (0 : ℝ)).2.1
    + ((10 : ℝ), (0 : ℝ), (0 : ℝ)).2.2 * ((10 : ℝ), (0 : ℝ), (0 : ℝ)).2.2 = 10 ^ 2 by norm_num]
  exact Real.sqrt_sq (by norm_num)

theorem exRight_step : (((10, 4, 0) : Vec3) - (0, 4, 0)) = (10, 0, 0) := by
  ext <;> norm_num

theorem exRight_moving (closed : Bool) : Moving (vertices closed exRight) := by
  intro j a b ha hb
  have : ((0 : ℝ), (4 : ℝ), (0 : ℝ)) ≠ (10, 4, 0) := by norm_num
  cases closed
  · match j with
    | 0 =>
      simp only [vertices, exRight, Bool.false_eq_true, if_false, List.getElem?_cons_zero, zero_add,
        List.getElem?_cons_succ, Option.some.injEq] at ha hb
      subst ha hb; exact this
    | j + 1 => simp [vertices, exRight] at hb
  · match j with
    | 0 =>
      simp only [vertices, exRight, if_true, List.cons_append, List.getElem?_cons_zero, zero_add,
        List.getElem?_cons_succ, Option.some.injEq] at ha hb
      subst ha hb; exact this
    | 1 =>
      simp only [vertices, exRight, if_true, List.cons_append, List.getElem?_cons_zero, List.nil_append,
        List.take_succ_cons, List.take_zero, List.getElem?_cons_succ, Option.some.injEq, Nat.reduceAdd] at ha hb
      subst ha hb; exact this.symm
    | j + 2 => simp [vertices, exRight] at hb

/-- The road with five elements, and with breakpoints of size 1 (twenty metres around if closed). -/
example : Interpolates exLibrary.linear ∧ FindsOnLine exLibrary.find ∧ 2 ≤ exLeft.length ∧
    2 ≤ exRight.length ∧ Moving (vertices true exRight) ∧
    Suits (.equispaced 5) 2 (perimeter (vertices true exRight)) ∧
    Suits (.breakpoints [((0, 4, 0), 1)]) 2 (perimeter (vertices true exRight)) := by
  refine ⟨exLinear_interpolates, exFind_onLine, by simp [exLeft], by simp [exRight], exRight_moving true,
    by simp [Suits], by simp, by norm_num, 1, 1, one_pos, by simp, ?_⟩
  have e : perimeter (vertices true exRight) = len (((10, 4, 0) : Vec3) - (0, 4, 0))
      + (len (((0, 4, 0) : Vec3) - (10, 4, 0)) + 0) := rfl
  have h := len_nonneg (((0, 4, 0) : Vec3) - (10, 4, 0))
  rw [e, exRight_step, len_ten]
  linarith

/-- With one element of the open road, the cross-sections are its ends and the midpoints differ. -/
example : ∃ pairs, sampled exLibrary false 2 100 (.equispaced 1) exLeft exRight 0 = some (.ok pairs) ∧
    Moving (vertices false (pairs.map fun p => (1 / 2 : ℝ) • (p.1 + p.2))) ∧
    Suits (.equispaced 1) 2 (perimeter (vertices false (pairs.map fun p => (1 / 2 : ℝ) • (p.1 + p.2)))) := by
  have hL : lengthOf (Mesh.arclengthsFrom distance 0 exRight) = 10 := by
    rw [lengthOf_arclengths _ (by simp [exRight])]
    change len (((10, 4, 0) : Vec3) - (0, 4, 0)) + 0 = 10
    rw [exRight_step, len_ten, add_zero]
  have hd : distance ((0 : ℝ), (4 : ℝ), (0 : ℝ)) (10, 4, 0) = 10 := by
    rw [distance_eq, exRight_step, len_ten]
  refine ⟨[((0, 4, 0), (0, 0, 0)), ((10, 4, 0), (0, 0, 0))], ?_, ?_, one_pos⟩
  · unfold sampled exRight
    simp only [closeLine, Bool.false_eq_true, if_false, andThen, along, one_ne_zero]
    have hL' : lengthOf (Mesh.arclengthsFrom distance 0 [((0 : ℝ), (4 : ℝ), (0 : ℝ)), (10, 4, 0)]) = 10 := hL
    rw [hL']
    simp [Mesh.linspace, Mesh.arclengthsFrom, hd, exLibrary, exLinear, exFind, dropClosing, follow, exLeft,
      List.range_succ]
  · intro j a b ha hb
    match j with
    | 0 =>
      simp only [vertices, Bool.false_eq_true, if_false, List.map_cons, List.getElem?_cons_zero, zero_add,
        List.getElem?_cons_succ, Option.some.injEq] at ha hb
      subst ha hb
      intro h
      have := congrArg Prod.fst h
      norm_num at this
    | j + 1 => simp [vertices] at hb

end Verif.Fit
