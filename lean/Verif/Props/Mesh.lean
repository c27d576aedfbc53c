import Verif.Spec.Mesh
import Verif.Lemmas.Mesh
import Mathlib.Data.List.Sort
import Mathlib.Tactic.NormNum

/-! # The mesh of the track preprocessor -/

set_option autoImplicit false

namespace Verif.Mesh

variable {K V : Type*} [Field K] [LinearOrder K] [IsStrictOrderedRing K]

/-- The nodes before the last six are made equal, with what the loop guarantees. -/
theorem mesh_raw (start : Start) (request : K → K) (ratio d L δ D : K) (fuel : Nat)
    (hδ : 0 < δ) (hr : 1 ≤ ratio) (hL : 0 < L) (hreq : Asks request L δ D) (hd : δ ≤ d) (hdD : d ≤ D)
    (added : List K) (h : grow request ratio L fuel (start.back d) d = some added) :
    ∃ T, start.nodes d ++ added = 0 :: T ∧ Good δ D ratio L d 0 T := by
  have hd0 : 0 < d := lt_of_lt_of_le hδ hd
  cases start with
  | breakpoints =>
    refine ⟨d :: added, rfl, hL, ?_⟩
    rw [sub_zero]
    exact ⟨hd, hdD, le_mul_of_one_le_left hd0.le hr, le_mul_of_one_le_left hd0.le hr,
      grow_good request ratio L δ D hδ hr hreq fuel d d added hd0.le hd hdD h⟩
  | distribution =>
    exact ⟨added, rfl, grow_good request ratio L δ D hδ hr hreq fuel 0 d added le_rfl hd hdD h⟩

omit [IsStrictOrderedRing K] in
/-- The positions of the nodes before the last six are made equal. -/
theorem place_curve (start : Start) (curve : K → V) (L d : K) (added : List K)
    (hall : ∀ (i : Nat) (x : K), i + 1 < (start.nodes d ++ added).length →
      (start.nodes d ++ added)[i]? = some x → x < L)
    (i : Nat) (p : K × V) (hi : i + 1 < (place curve L (start.nodes d) added).length)
    (hp : (place curve L (start.nodes d) added)[i]? = some p) : p.1 < L ∧ p.2 = curve p.1 := by
  have hlen : (place curve L (start.nodes d) added).length = (start.nodes d ++ added).length := by
    simp [place]
  have hfst : (start.nodes d ++ added)[i]? = some p.1 := by
    rw [← place_eq start curve L d added, List.getElem?_map, hp]; rfl
  have hlt := hall i p.1 (by omega) hfst
  refine ⟨hlt, ?_⟩
  rcases List.mem_append.1 (List.mem_of_getElem? hp) with h | h
  · obtain ⟨s, -, rfl⟩ := List.mem_map.1 h; rfl
  · obtain ⟨s, -, rfl⟩ := List.mem_map.1 h
    simp only at hlt ⊢
    rw [min_eq_left hlt.le]

/-! ## C128: the mesh covers the track -/

/-- C128. If the sizes asked for are positive and no larger than a fifth of the track, the mesh is
computed: it starts at 0, its arclengths increase strictly, it ends exactly at the end of the track, and
every position is the one of the curve at its arclength. The last six elements are equal. -/
theorem C128_mesh [Archimedean K] (start : Start) (request : K → K) (ratio d L δ D : K) (curve : K → V)
    (hδ : 0 < δ) (hr : 1 ≤ ratio) (hreq : Asks request L δ D) (hd : δ ≤ d) (hdD : d ≤ D)
    (hL : 5 * D < L) :
    ∃ fuel m, mesh start request ratio d L curve fuel = some (.ok m) ∧ 7 ≤ m.length ∧
      m.head? = some (0, curve 0) ∧ m.getLast? = some (L, curve L) ∧
      (m.map Prod.fst).Pairwise (· < ·) ∧ (∀ p ∈ m, p.2 = curve p.1) ∧
      (∃ a h, (m.map Prod.fst)[m.length - 7]? = some a ∧ 0 < h ∧
        ∀ i, i < 6 → (m.map Prod.fst)[m.length - 6 + i]? = some (a + ((i : K) + 1) * h)) := by
  have hD : 0 < D := lt_of_lt_of_le hδ (hd.trans hdD)
  have hL0 : 0 < L := by linarith
  have hd0 : 0 < d := lt_of_lt_of_le hδ hd
  obtain ⟨fuel, hfuel⟩ := Archimedean.arch (L - start.back d) hδ
  have hback : 0 ≤ start.back d := by cases start <;> simp [Start.back, hd0.le]
  obtain ⟨added, hadd⟩ := grow_ends request ratio L δ D hδ hr hreq fuel (start.back d) d hback hd hdD
    (by rw [nsmul_eq_mul] at hfuel; linarith [mul_comm δ (fuel : K)])
  obtain ⟨T, hT, hgood⟩ := mesh_raw start request ratio d L δ D fuel hδ hr hL0 hreq hd hdD added hadd
  have hTlen : 6 ≤ T.length := by
    have := hgood.length_ge
    by_contra hc
    have h5 : (T.length : K) ≤ 5 := by exact_mod_cast (by omega : T.length ≤ 5)
    nlinarith
  have hlen : (place curve L (start.nodes d) added).length = T.length + 1 := by
    have := congrArg List.length hT
    simp [place] at this ⊢
    exact this
  have hpw : ((place curve L (start.nodes d) added).map Prod.fst).Pairwise (· < ·) := by
    rw [place_eq, hT]; exact hgood.pairwise hδ
  obtain ⟨m, h1, h2, h3, h4, h5, h6, a, h, h7, h8, -, h10⟩ := squash_spec curve L
    (place curve L (start.nodes d) added) (by omega) hpw
    (place_curve start curve L d added (by
      rw [hT]; intro i x hi hx; exact hgood.below _ _ _ i x (by simpa using hi) hx))
  refine ⟨fuel, m, by unfold mesh; rw [hadd]; simp [h1], by omega, ?_, h5, h4, h6, a.1, h, ?_, h8, ?_⟩
  · rw [List.head?_eq_getElem?, h3 0 (by omega)]
    have hm : (place curve L (start.nodes d) added)[0]? = some (0, curve 0) := by
      cases start <;> rfl
    exact hm
  · rw [h2, List.getElem?_map, h3 _ (by omega), h7]; rfl
  · intro i hi
    rw [h2, List.getElem?_map, h10 i hi]; rfl

/-- C128. If the sizes asked for are at least a fifth of the track the behaviour is undefined: there are
fewer than seven nodes. -/
theorem C128_too_short [Archimedean K] (start : Start) (request : K → K) (ratio d L δ D : K)
    (curve : K → V) (hδ : 0 < δ) (hr : 1 ≤ ratio) (hreq : Asks request L δ D) (hd : δ ≤ d) (hdD : d ≤ D)
    (hL0 : 0 < L) (hL : L ≤ 5 * δ) :
    ∃ fuel, mesh start request ratio d L curve fuel = some .ub := by
  have hd0 : 0 < d := lt_of_lt_of_le hδ hd
  obtain ⟨fuel, hfuel⟩ := Archimedean.arch (L - start.back d) hδ
  have hback : 0 ≤ start.back d := by cases start <;> simp [Start.back, hd0.le]
  obtain ⟨added, hadd⟩ := grow_ends request ratio L δ D hδ hr hreq fuel (start.back d) d hback hd hdD
    (by rw [nsmul_eq_mul] at hfuel; linarith [mul_comm δ (fuel : K)])
  obtain ⟨T, hT, hgood⟩ := mesh_raw start request ratio d L δ D fuel hδ hr hL0 hreq hd hdD added hadd
  refine ⟨fuel, ?_⟩
  unfold mesh
  rw [hadd, Option.map_some]
  unfold squash
  rw [if_pos]
  have hlen : (place curve L (start.nodes d) added).length = T.length + 1 := by
    have := congrArg List.length hT
    simp [place] at this ⊢
    exact this
  rw [hlen]
  cases T with
  | nil => simp
  | cons c l =>
    have := hgood.length_lt
    by_contra hc
    simp only [List.length_cons, not_lt] at hc
    have h5 : (5 : K) ≤ l.length := by exact_mod_cast (by omega : 5 ≤ l.length)
    nlinarith

omit [IsStrictOrderedRing K] in
/-- C128. Rounds beyond the last one change nothing. -/
theorem C128_fuel (start : Start) (request : K → K) (ratio d L : K) (curve : K → V) (fuel more : Nat)
    (r : Res (List (K × V))) (h : mesh start request ratio d L curve fuel = some r) :
    mesh start request ratio d L curve (fuel + more) = some r := by
  have key : ∀ (fuel : Nat) (b prev : K) (l : List K), grow request ratio L fuel b prev = some l →
      grow request ratio L (fuel + more) b prev = some l := by
    intro fuel
    induction fuel with
    | zero =>
      intro b prev l h
      by_cases hb : b < L
      · rw [grow_zero _ _ _ _ _ hb] at h; cases h
      · rw [grow_done _ _ _ _ _ _ hb] at h ⊢; exact h
    | succ n ih =>
      intro b prev l h
      by_cases hb : b < L
      · rw [show n + 1 + more = (n + more) + 1 by omega]
        rw [grow_step _ _ _ _ _ _ hb] at h ⊢
        obtain ⟨l', h1, h2⟩ := Option.map_eq_some_iff.1 h
        rw [ih _ _ _ h1, Option.map_some, h2]
      · rw [grow_done _ _ _ _ _ _ hb] at h ⊢; exact h
  unfold mesh at h ⊢
  obtain ⟨l, h1, h2⟩ := Option.map_eq_some_iff.1 h
  rw [key _ _ _ _ h1, Option.map_some, h2]

/-- C128. If the sizes asked for are zero (or negative) the loop never ends on a track that is long
enough: the elements shrink by the ratio every time. -/
theorem C128_endless (start : Start) (request : K → K) (ratio d L : K) (curve : K → V) (fuel : Nat)
    (hr : 1 < ratio) (hd : 0 < d) (hreq : ∀ b, request b ≤ 0) (hL : d + d / (ratio - 1) < L) :
    mesh start request ratio d L curve fuel = none := by
  have hr1 : 0 < ratio - 1 := sub_pos.2 hr
  have hr0 : 0 < ratio := by linarith
  have key : ∀ (fuel : Nat) (b prev : K), 0 < prev → b + prev / (ratio - 1) < L →
      grow request ratio L fuel b prev = none := by
    intro fuel
    induction fuel with
    | zero =>
      intro b prev hp hb
      exact grow_zero _ _ _ _ _ (by have := div_pos hp hr1; linarith)
    | succ n ih =>
      intro b prev hp hb
      have hb' : b < L := by have := div_pos hp hr1; linarith
      have hpr : 0 < prev / ratio := div_pos hp hr0
      have hlim : limit ratio prev (request b) = prev / ratio := by
        unfold limit
        rw [if_neg (by have := hreq b; have := mul_pos hr0 hp; linarith),
          if_pos (lt_of_le_of_lt (hreq b) hpr)]
      rw [grow_step _ _ _ _ _ _ hb', hlim, ih _ _ hpr ?_, Option.map_none]
      have : prev / ratio + prev / ratio / (ratio - 1) = prev / (ratio - 1) := by
        field_simp; ring
      linarith
  unfold mesh
  rw [key fuel _ d hd ?_, Option.map_none]
  have := div_pos hd hr1
  cases start <;> simp only [Start.back] <;> linarith

/-- A track of 100 with elements of 3. -/
example : ∃ fuel m, mesh .distribution (fun _ => (3 : ℚ)) (6 / 5) 3 100 id fuel = some (.ok m) ∧
    7 ≤ m.length ∧ m.head? = some (0, 0) ∧ m.getLast? = some (100, 100) := by
  obtain ⟨fuel, m, h1, h2, h3, h4, -⟩ := C128_mesh .distribution (fun _ => (3 : ℚ)) (6 / 5) 3 100 3 3 id
    (by norm_num) (by norm_num) (fun _ _ _ => ⟨le_rfl, le_rfl⟩) le_rfl le_rfl (by norm_num)
  exact ⟨fuel, m, h1, h2, h3, h4⟩

/-- C128. A mesh given by its number of elements has them equal: it starts at 0 and ends at the end of
the track. -/
theorem C128_equispaced (L : K) (hL : 0 < L) (n : Nat) (hn : 0 < n) :
    (linspace L n).length = n + 1 ∧ (linspace L n).head? = some 0 ∧ (linspace L n).getLast? = some L ∧
      (linspace L n).Pairwise (· < ·) ∧
      ∀ (i : Nat) (a b : K), (linspace L n)[i]? = some a → (linspace L n)[i + 1]? = some b →
        b - a = L / n := by
  have hn0 : (0 : K) < n := by exact_mod_cast hn
  refine ⟨by simp [linspace], ?_, ?_, ?_, ?_⟩
  · simp [linspace, List.head?_range]
  · simp [linspace, List.getLast?_range, hn0.ne']
  · refine List.pairwise_map.2 (List.pairwise_lt_range.imp ?_)
    intro i j hij
    have : (i : K) < j := by exact_mod_cast hij
    exact div_lt_div_of_pos_right (mul_lt_mul_of_pos_left this hL) hn0
  · intro i a b ha hb
    have hi : i + 1 < n + 1 := by
      by_contra hc
      rw [List.getElem?_eq_none (by simp [linspace]; omega)] at hb
      cases hb
    simp only [linspace, List.getElem?_map, List.getElem?_range (by omega : i < n + 1),
      List.getElem?_range hi, Option.map_some, Option.some.injEq] at ha hb
    rw [← ha, ← hb]
    push_cast
    field_simp
    ring

/-! ## C129: adjacent elements -/

/-- C129, the part that holds: two adjacent elements, neither of which is one of the last six, differ at
most by the maximum ratio. -/
theorem C129_ratio_partial (start : Start) (request : K → K) (ratio d L δ D : K) (curve : K → V)
    (fuel : Nat) (hδ : 0 < δ) (hr : 1 ≤ ratio) (hL : 0 < L) (hreq : Asks request L δ D) (hd : δ ≤ d)
    (hdD : d ≤ D) (m : List (K × V)) (hm : mesh start request ratio d L curve fuel = some (.ok m))
    (i : Nat) (x y z : K) (hi : i + 8 < m.length) (hx : (m.map Prod.fst)[i]? = some x)
    (hy : (m.map Prod.fst)[i + 1]? = some y) (hz : (m.map Prod.fst)[i + 2]? = some z) :
    z - y ≤ ratio * (y - x) ∧ y - x ≤ ratio * (z - y) := by
  unfold mesh at hm
  obtain ⟨added, h1, h2⟩ := Option.map_eq_some_iff.1 hm
  obtain ⟨T, hT, hgood⟩ := mesh_raw start request ratio d L δ D fuel hδ hr hL hreq hd hdD added h1
  have hlen : (place curve L (start.nodes d) added).length = T.length + 1 := by
    have := congrArg List.length hT
    simp [place] at this ⊢
    exact this
  have h7 : 7 ≤ (place curve L (start.nodes d) added).length := by
    by_contra hc
    unfold squash at h2
    rw [if_pos (by omega)] at h2
    cases h2
  obtain ⟨m', q1, q2, q3, -⟩ := squash_spec curve L (place curve L (start.nodes d) added) h7
    (by rw [place_eq, hT]; exact hgood.pairwise hδ)
    (place_curve start curve L d added (by
      rw [hT]; intro i x hi hx; exact hgood.below _ _ _ i x (by simpa using hi) hx))
  rw [q1] at h2
  cases h2
  have e : ∀ j, j + 6 < m.length → (m.map Prod.fst)[j]? = (0 :: T)[j]? := by
    intro j hj
    rw [List.getElem?_map, q3 j (by omega), ← List.getElem?_map, place_eq, hT]
  rw [e i (by omega)] at hx
  rw [e (i + 1) (by omega)] at hy
  rw [e (i + 2) (by omega)] at hz
  exact hgood.ratio _ _ _ i x y z hx hy hz

/-- C129 is false: with the default ratio 1.2 and sizes asked for that grow, the first of the last six
elements is almost twice the one before. -/
theorem C129_false : ∃ (request : ℚ → ℚ) (L : ℚ) (m : List (ℚ × ℚ)), Asks request L 1 2 ∧ 5 * 2 < L ∧
    mesh .breakpoints request (6 / 5) 1 L id 10 = some (.ok m) ∧
    ∃ x y z, (m.map Prod.fst)[0]? = some x ∧ (m.map Prod.fst)[1]? = some y ∧
      (m.map Prod.fst)[2]? = some z ∧ z - y > 6 / 5 * (y - x) := by
  refine ⟨fun _ => 2, 11, [(0, 0), (1, 1), (8 / 3, 8 / 3), (13 / 3, 13 / 3), (6, 6), (23 / 3, 23 / 3),
    (28 / 3, 28 / 3), (11, 11)], fun _ _ _ => ⟨by norm_num, le_rfl⟩, by norm_num, ?_, 0, 1, 8 / 3, rfl,
    rfl, rfl, by norm_num⟩
  decide +kernel

end Verif.Mesh
