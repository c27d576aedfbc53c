import Verif.Props.CircuitFit

/-! Properties of the errors reported with a computed circuit (C209). -/

set_option autoImplicit false

namespace Verif.Fit

open Verif.Road (Vec3)
open Verif.Preprocessor

theorem follow_distances (search : Vec3 → Nat → Vec3 × ℝ × Nat × Nat) (d : Vec3 → ℝ)
    (h : ∀ p i, (search p i).2.1 = d p) : ∀ (l : List Vec3) (i : Nat),
    (follow search i l).map (fun f => Real.sqrt f.2) = l.map fun p => Real.sqrt (d p)
  | [], _ => rfl
  | p :: l, i => by
    simp only [follow, List.map_cons, h]
    rw [follow_distances search d h l]

theorem errorLoop_integral : ∀ (rest : List (ℝ × ℝ)) (s e mx l2 : ℝ),
    (errorLoop rest s e mx l2).2.1 = l2 + trapezoid (((s, e) :: rest).map fun p => (p.1, p.2 * p.2)) ∧
    (errorLoop rest s e mx l2).2.2 = (rest.getLast?.getD (s, e)).2
  | [], s, e, mx, l2 => by simp [errorLoop, trapezoid]
  | (s', e') :: rest, s, e, mx, l2 => by
    obtain ⟨h1, h2⟩ := errorLoop_integral rest s' e' (max e' mx) (l2 + 1 / 2 * (s' - s) * (e * e + e' * e'))
    simp only [errorLoop]
    refine ⟨?_, ?_⟩
    · rw [h1]
      simp only [List.map_cons, trapezoid]
      ring
    · rw [h2]
      cases rest <;> simp [List.getLast?_cons]

/-- The mean square error is the integral of the squares over the length. -/
theorem errors_integral (closed : Bool) (length : ℝ) (first : ℝ × ℝ) (rest : List (ℝ × ℝ)) :
    (errors closed length first rest).2 =
      Real.sqrt (integral closed length ((first :: rest).map fun p => (p.1, p.2 * p.2)) / length) := by
  obtain ⟨h1, h2⟩ := errorLoop_integral rest first.1 first.2 first.2 0
  unfold errors
  simp only [h1, h2, zero_add, integral, List.getLast?_map]
  cases closed with
  | false => simp
  | true =>
    congr 2
    rw [if_pos rfl]
    congr 1
    cases hr : rest.getLast? with
    | none =>
      have : rest = [] := List.getLast?_eq_none_iff.1 hr
      subst this
      show _ = (length - first.1) / 2 * (first.2 * first.2 + first.2 * first.2)
      simp only [Option.getD_none]
      ring
    | some b =>
      have : (first :: rest).getLast? = some b := by rw [List.getLast?_cons, hr]; rfl
      rw [this]
      show _ = (length - b.1) / 2 * (b.2 * b.2 + first.2 * first.2)
      simp only [Option.getD_some]
      ring

theorem finish_errors (lib : Library) (st : Settings) (k : Kind) (closed : Bool) (left right : List Vec3)
    (n : Nat) (su : Setup) (o : Outcome) (res : Fitted) (h : finish lib st k closed left right n su o = .ok res) :
    boundaryErrors lib closed st.dmax left res.left res.s res.length = .ok res.leftError ∧
    boundaryErrors lib closed st.dmax right res.right res.s res.length = .ok res.rightError := by
  unfold finish at h
  split at h
  · obtain ⟨f, -, h⟩ := Res.bind_eq_ok.1 h
    obtain ⟨sl, -, h⟩ := Res.bind_eq_ok.1 h
    obtain ⟨qs, -, h⟩ := Res.bind_eq_ok.1 h
    obtain ⟨el, h1, h⟩ := Res.bind_eq_ok.1 h
    obtain ⟨er, h2, h⟩ := Res.bind_eq_ok.1 h
    obtain rfl := Res.ok.inj h
    exact ⟨h1, h2⟩
  · cases h

/-- The errors of one boundary. -/
theorem boundary_errors (lib : Library) (hfind : FindsClosest lib.find) (closed : Bool) (D : List Vec3 → Vec3 → ℝ)
    (hD : Measures closed D) (dmax : ℝ) (measured line : List Vec3) (h2 : 2 ≤ measured.length) (s : List ℝ)
    (length : ℝ) (e : ℝ × ℝ) (hlen : s.length = line.length)
    (h : boundaryErrors lib closed dmax measured line s length = .ok e) :
    (∀ p ∈ line, Real.sqrt (D measured p) ≤ e.1) ∧ (∃ p ∈ line, e.1 = Real.sqrt (D measured p)) ∧
    e.2 = Real.sqrt (integral closed length (s.zip (line.map (D measured))) / length) := by
  have hd : ∀ p i d, (lib.find measured p closed i d).2.1 = D measured p := fun p i d =>
    squaredDistance_unique (hfind measured p closed i d h2) (hD measured p h2)
  unfold boundaryErrors at h
  match line, s, hlen with
  | [], _, _ => cases h
  | p :: rest, s₀ :: ss, hlen =>
    obtain rfl := Res.ok.inj h
    have hl : ss.length = rest.length := by simpa using hlen
    rw [follow_distances _ (D measured) (fun p i => hd p i dmax), hd]
    obtain ⟨m1, m2, m3⟩ := errorLoop_max (ss.zip (rest.map fun p => Real.sqrt (D measured p))) s₀
      (Real.sqrt (D measured p)) (Real.sqrt (D measured p)) 0
    refine ⟨?_, ?_, ?_⟩
    · intro q hq
      rcases List.mem_cons.1 hq with rfl | hq
      · exact m1
      · obtain ⟨i, hi, rfl⟩ := List.getElem_of_mem hq
        exact m2 (ss[i], Real.sqrt (D measured rest[i])) (List.mem_iff_getElem.2 ⟨i, by simp; omega, by simp⟩)
    · rcases m3 with m3 | ⟨q, hq, m3⟩
      · exact ⟨p, by simp, m3⟩
      · have := (List.of_mem_zip hq).2
        obtain ⟨r, hr, e⟩ := List.mem_map.1 this
        exact ⟨r, by simp [hr], by rw [e]; exact m3⟩
    · rw [errors_integral]
      congr 3
      have hsq : ∀ q, Real.sqrt (D measured q) * Real.sqrt (D measured q) = D measured q := fun q =>
        Real.mul_self_sqrt (squaredDistance_nonneg (hD measured q h2))
      rw [List.map_cons, hsq, List.map_cons, List.zip_cons_cons]
      congr 1
      apply List.ext_getElem
      · simp
      · intro i h1 h2
        simp [hsq]

/-- C209: the maximum error reported for a boundary of a computed circuit is the largest distance of its points to
the measured boundary (`D` gives squared distances to polygons, closed ones exactly if the circuit is), and the
mean square error the root of the mean over the length of the circuit of the squares of these distances. -/
theorem C209_errors (lib : Library) (hfind : FindsClosest lib.find) (opt : Optimiser) (hopt : RightSize opt)
    (D : List Vec3 → Vec3 → ℝ) (st : Settings) (k : Kind) (closed : Bool) (hD : Measures closed D)
    (left right : List Vec3) (h2l : 2 ≤ left.length) (h2r : 2 ≤ right.length) (c : Centerline)
    (hu : Usable closed left right c) (res : Fitted)
    (hres : compute lib opt st k closed left right c = .ok res) :
    ((∀ p ∈ res.points, Real.sqrt (D left (leftEdge p)) ≤ res.leftError.1) ∧
      (∃ p ∈ res.points, res.leftError.1 = Real.sqrt (D left (leftEdge p))) ∧
      res.leftError.2 = Real.sqrt (integral closed res.length
        (res.s.zip (res.points.map fun p => D left (leftEdge p))) / res.length)) ∧
    (∀ p ∈ res.points, Real.sqrt (D right (rightEdge p)) ≤ res.rightError.1) ∧
      (∃ p ∈ res.points, res.rightError.1 = Real.sqrt (D right (rightEdge p))) ∧
      res.rightError.2 = Real.sqrt (integral closed res.length
        (res.s.zip (res.points.map fun p => D right (rightEdge p))) / res.length) := by
  obtain ⟨ang, guess, su, f, hg, hG, hsu, hP, ho, hn, hk, h1, h2, h3, h4, h5⟩ :=
    compute_result lib opt hopt st k closed left right c hu res hres
  have hfin : finish lib st k closed left right c.r.length su (opt su.nlp) = .ok res := by
    unfold compute at hres
    rwa [hsu, Res.bind_ok] at hres
  obtain ⟨el, er⟩ := finish_errors lib st k closed left right c.r.length su _ res hfin
  have hlen : res.s.length = res.points.length := by rw [h1, List.length_map, hn, hu.points]
  have l := boundary_errors lib hfind closed D hD st.dmax left res.left h2l res.s res.length res.leftError
    (by rw [h3, List.length_map, hlen]) el
  have r := boundary_errors lib hfind closed D hD st.dmax right res.right h2r res.s res.length res.rightError
    (by rw [h4, List.length_map, hlen]) er
  rw [h3, List.map_map] at l
  rw [h4, List.map_map] at r
  simp only [List.mem_map, forall_exists_index, and_imp, forall_apply_eq_imp_iff₂, exists_exists_and_eq_and] at l r
  exact ⟨l, r⟩

/-- A point of a track whose left boundary is its centreline. -/
def halfPoint (x : ℝ) : Point ℝ := ⟨x, 2, 0, 0, 0, 0, 0, 0, 0, 0, 2, 0, 0, 0, 0, 0⟩

/-- C209: the track on the right half of the straight road is 2 m off on the left. -/
example : ∃ (opt : Optimiser) (res : Fitted), RightSize opt ∧
    compute exClosest opt exSettings .flat false exLeft exRight exEstimate = .ok res ∧ res.leftError = (2, 2) := by
  let x : List ℝ := 1 :: [halfPoint 0, halfPoint 10].flatMap (writes .flat)
  let opt : Optimiser := fun nlp => ⟨true, if nlp.start.length = x.length then x else nlp.start⟩
  have hopt : RightSize opt := by
    intro nlp
    show (if _ then _ else _ : List ℝ).length = _
    split
    · rename_i h; exact h.symm
    · rfl
  obtain ⟨su, hsu, hn, -, -, -, hok, -⟩ := C202_outcome exClosest opt hopt exSettings .flat false exLeft exRight exEstimate
    exEstimate_usable
  obtain ⟨res, hres⟩ := hok rfl
  refine ⟨opt, res, hopt, hres, ?_⟩
  obtain ⟨ang, guess, su', f, -, -, hsu', -, ho, hl, hk, h1, h2, -⟩ :=
    compute_result exClosest opt hopt exSettings .flat false exLeft exRight exEstimate exEstimate_usable res hres
  obtain rfl := Res.ok.inj (hsu.symm.trans hsu')
  have hx : (opt su.nlp).x = x := if_pos (by rw [hn]; rfl)
  rw [ho] at hx
  obtain ⟨p, q, hpq⟩ : ∃ p q, res.points = [p, q] := by
    match h : res.points, hl with
    | [p, q], _ => exact ⟨p, q, rfl⟩
  rw [hpq] at hx hk
  have hx' : f :: (writes .flat p ++ (writes .flat q ++ [])) =
      1 :: (writes .flat (halfPoint 0) ++ (writes .flat (halfPoint 10) ++ [])) := hx
  have kp : keep .flat p = p := hk p (by simp)
  have kq : keep .flat q = q := hk q (by simp)
  simp only [writes, List.cons_append, List.nil_append, List.cons.injEq, halfPoint] at hx'
  obtain ⟨f1, a1, a2, a3, a4, a5, a6, a7, a8, a9, b1, b2, b3, b4, b5, b6, b7, b8, b9, -⟩ := hx'
  have ep : p = halfPoint 0 := by
    rw [← kp, keep, halfPoint, a1, a2, a3, a4, a5, a6, a7, a8, a9]
  have eq : q = halfPoint 10 := by
    rw [← kq, keep, halfPoint, b1, b2, b3, b4, b5, b6, b7, b8, b9]
  obtain ⟨⟨m1, ⟨r, hr, m2⟩, m3⟩, -⟩ := C209_errors exClosest exSearch_closest opt hopt
    (fun l p => (exSearch l p false 0 0).2.1) exSettings .flat false (fun l p h => exSearch_closest l p false 0 0 h)
    exLeft exRight le_rfl le_rfl exEstimate exEstimate_usable res hres
  have hq : Real.sqrt 4 = 2 := by
    rw [show (4 : ℝ) = 2 ^ 2 by norm_num]
    exact Real.sqrt_sq (by norm_num)
  have he : ∀ x, leftEdge (halfPoint x) = (x, 2, 0) := by
    intro x
    simp [leftEdge, position, halfPoint]
  have d0 : (exSearch exLeft (leftEdge p) false 0 0).2.1 = 4 := by
    rw [ep, he]; exact exSearch_left 0 le_rfl (by norm_num) 0 0
  have d1 : (exSearch exLeft (leftEdge q) false 0 0).2.1 = 4 := by
    rw [eq, he]; exact exSearch_left 10 (by norm_num) le_rfl 0 0
  rw [hpq] at hr m3
  refine Prod.ext ?_ ?_
  · rw [m2]
    simp only [List.mem_cons, List.not_mem_nil, or_false] at hr
    rcases hr with rfl | rfl
    · rw [d0, hq]
    · rw [d1, hq]
  · have hs : res.s = [0, 10] := by rw [h1, f1]; simp [exEstimate]
    have hL : res.length = 10 := by rw [h2, f1]; simp [exEstimate]
    rw [m3, hs, hL]
    simp only [List.map_cons, List.map_nil, d0, d1]
    rw [show integral false 10 ([0, 10].zip [4, 4]) / 10 = 4 by norm_num [integral, trapezoid], hq]

end Verif.Fit
