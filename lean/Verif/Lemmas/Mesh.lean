import Verif.Model.Mesh
import Verif.Lemmas.ResList
import Mathlib.Algebra.Order.Archimedean.Basic
import Mathlib.Tactic.Ring
import Mathlib.Tactic.Linarith
import Mathlib.Tactic.FieldSimp
import Mathlib.Tactic.Positivity

set_option autoImplicit false

namespace Verif.Mesh

variable {K V : Type*} [Field K] [LinearOrder K] [IsStrictOrderedRing K]

omit [IsStrictOrderedRing K] in
theorem grow_done (request : K → K) (ratio L : K) (fuel : Nat) (b prev : K) (h : ¬b < L) :
    grow request ratio L fuel b prev = some [] := by
  unfold grow; rw [if_neg h]

omit [IsStrictOrderedRing K] in
theorem grow_step (request : K → K) (ratio L : K) (fuel : Nat) (b prev : K) (h : b < L) :
    grow request ratio L (fuel + 1) b prev
      = (grow request ratio L fuel (b + limit ratio prev (request b)) (limit ratio prev (request b))).map
          fun l => (b + limit ratio prev (request b)) :: l := by
  conv_lhs => unfold grow
  rw [if_pos h]

omit [IsStrictOrderedRing K] in
theorem grow_zero (request : K → K) (ratio L : K) (b prev : K) (h : b < L) :
    grow request ratio L 0 b prev = none := by
  unfold grow; rw [if_pos h]

theorem limit_bounds (ratio δ D prev ds : K) (hδ : 0 < δ) (hr : 1 ≤ ratio) (hp : δ ≤ prev)
    (hpD : prev ≤ D) (hd : δ ≤ ds) (hdD : ds ≤ D) :
    δ ≤ limit ratio prev ds ∧ limit ratio prev ds ≤ D ∧ limit ratio prev ds ≤ ratio * prev ∧
      prev ≤ ratio * limit ratio prev ds := by
  have hr0 : 0 < ratio := lt_of_lt_of_le one_pos hr
  have hp0 : 0 < prev := lt_of_lt_of_le hδ hp
  have h1 : prev ≤ ratio * prev := le_mul_of_one_le_left hp0.le hr
  have h2 : prev / ratio ≤ prev := div_le_self hp0.le hr
  unfold limit
  split_ifs with ha hb
  · exact ⟨hp.trans h1, (le_of_lt ha).trans hdD, le_rfl,
      h1.trans (le_mul_of_one_le_left (hp0.le.trans h1) hr)⟩
  · exact ⟨hd.trans (le_of_lt hb), h2.trans hpD, h2.trans h1, by rw [mul_div_cancel₀ _ hr0.ne']⟩
  · refine ⟨hd, hdD, not_lt.1 ha, ?_⟩
    have := not_lt.1 hb
    rw [div_le_iff₀ hr0] at this
    linarith [mul_comm ds ratio]

/-- What the loop guarantees of the nodes `T` after node `b`, with the last element `prev`. -/
def Good (δ D ratio L : K) : K → K → List K → Prop
  | _, b, [] => L ≤ b
  | prev, b, c :: l => b < L ∧ δ ≤ c - b ∧ c - b ≤ D ∧ c - b ≤ ratio * prev ∧ prev ≤ ratio * (c - b) ∧
      Good δ D ratio L (c - b) c l

theorem grow_good (request : K → K) (ratio L δ D : K) (hδ : 0 < δ) (hr : 1 ≤ ratio)
    (hreq : ∀ b, 0 ≤ b → b < L → δ ≤ request b ∧ request b ≤ D) :
    ∀ (fuel : Nat) (b prev : K) (l : List K), 0 ≤ b → δ ≤ prev → prev ≤ D →
      grow request ratio L fuel b prev = some l → Good δ D ratio L prev b l
  | fuel, b, prev, l, hb, hp, hpD, h => by
    by_cases hbL : b < L
    · cases fuel with
      | zero => rw [grow_zero _ _ _ _ _ hbL] at h; cases h
      | succ fuel =>
        rw [grow_step _ _ _ _ _ _ hbL] at h
        obtain ⟨l', h1, h2⟩ := Option.map_eq_some_iff.1 h
        obtain ⟨q1, q2, q3, q4⟩ := limit_bounds ratio δ D prev (request b) hδ hr hp hpD
          (hreq b hb hbL).1 (hreq b hb hbL).2
        have ih := grow_good request ratio L δ D hδ hr hreq fuel _ _ l' (by linarith) q1 q2 h1
        rw [← h2]
        refine ⟨hbL, ?_⟩
        rw [add_sub_cancel_left]
        exact ⟨q1, q2, q3, q4, ih⟩
    · rw [grow_done _ _ _ _ _ _ hbL] at h
      cases h
      exact not_lt.1 hbL

theorem grow_ends (request : K → K) (ratio L δ D : K) (hδ : 0 < δ) (hr : 1 ≤ ratio)
    (hreq : ∀ b, 0 ≤ b → b < L → δ ≤ request b ∧ request b ≤ D) :
    ∀ (fuel : Nat) (b prev : K), 0 ≤ b → δ ≤ prev → prev ≤ D → L - b ≤ δ * fuel →
      ∃ l, grow request ratio L fuel b prev = some l
  | fuel, b, prev, hb, hp, hpD, h => by
    by_cases hbL : b < L
    · cases fuel with
      | zero => simp at h; linarith
      | succ fuel =>
        obtain ⟨q1, q2, -, -⟩ := limit_bounds ratio δ D prev (request b) hδ hr hp hpD
          (hreq b hb hbL).1 (hreq b hb hbL).2
        push_cast at h
        obtain ⟨l, hl⟩ := grow_ends request ratio L δ D hδ hr hreq fuel _ _
          (by linarith) q1 q2 (by linarith : L - (b + limit ratio prev (request b)) ≤ δ * fuel)
        exact ⟨_, by rw [grow_step _ _ _ _ _ _ hbL, hl]; rfl⟩
    · exact ⟨_, grow_done _ _ _ _ _ _ hbL⟩

theorem Good.pairwise {δ D ratio L : K} (hδ : 0 < δ) : ∀ (T : List K) (prev b : K),
    Good δ D ratio L prev b T → (b :: T).Pairwise (· < ·)
  | [], _, _, _ => by simp
  | c :: l, prev, b, h => by
    have ih := Good.pairwise hδ l (c - b) c h.2.2.2.2.2
    have hbc : b < c := by linarith [h.2.1]
    refine List.pairwise_cons.2 ⟨fun x hx => ?_, ih⟩
    rcases List.mem_cons.1 hx with rfl | hx
    · exact hbc
    · exact hbc.trans ((List.pairwise_cons.1 ih).1 x hx)

omit [IsStrictOrderedRing K] in
theorem Good.below {δ D ratio L : K} : ∀ (T : List K) (prev b : K) (i : Nat) (x : K),
    Good δ D ratio L prev b T → i < T.length → (b :: T)[i]? = some x → x < L
  | [], _, _, _, _, _, hi, _ => by simp at hi
  | c :: l, prev, b, 0, x, h, _, hx => by
    simp only [List.getElem?_cons_zero, Option.some.injEq] at hx
    rw [← hx]; exact h.1
  | c :: l, prev, b, i + 1, x, h, hi, hx =>
    Good.below l (c - b) c i x h.2.2.2.2.2 (by simpa using hi) (by simpa using hx)

theorem Good.length_ge {δ D ratio L : K} : ∀ (T : List K) (prev b : K),
    Good δ D ratio L prev b T → L - b ≤ D * T.length
  | [], _, b, h => by
    have h : L ≤ b := h
    simp; linarith
  | c :: l, prev, b, h => by
    have ih := Good.length_ge l (c - b) c h.2.2.2.2.2
    have := h.2.2.1
    simp only [List.length_cons]
    push_cast
    linarith

theorem Good.length_lt {δ D ratio L : K} : ∀ (l : List K) (c prev b : K),
    Good δ D ratio L prev b (c :: l) → δ * l.length < L - b
  | [], c, prev, b, h => by simp; linarith [h.1]
  | c' :: l, c, prev, b, h => by
    have ih := Good.length_lt l c' (c - b) c h.2.2.2.2.2
    have := h.2.1
    simp only [List.length_cons]
    push_cast
    linarith

omit [IsStrictOrderedRing K] in
theorem Good.ratio {δ D r L : K} : ∀ (T : List K) (prev b : K) (i : Nat) (x y z : K),
    Good δ D r L prev b T → (b :: T)[i]? = some x → (b :: T)[i + 1]? = some y →
    (b :: T)[i + 2]? = some z → z - y ≤ r * (y - x) ∧ y - x ≤ r * (z - y)
  | [], _, _, _, _, _, _, _, _, h, _ => by simp at h
  | [c], _, _, _, _, _, _, _, _, _, h => by simp at h
  | c :: d :: l, prev, b, 0, x, y, z, h, hx, hy, hz => by
    simp only [List.getElem?_cons_zero, List.getElem?_cons_succ, Option.some.injEq] at hx hy hz
    subst hx hy hz
    exact ⟨h.2.2.2.2.2.2.2.2.1, h.2.2.2.2.2.2.2.2.2.1⟩
  | c :: d :: l, prev, b, i + 1, x, y, z, h, hx, hy, hz =>
    Good.ratio (d :: l) (c - b) c i x y z h.2.2.2.2.2 (by simpa using hx) (by simpa using hy)
      (by simpa using hz)

omit [IsStrictOrderedRing K] in
/-- The positions placed on the curve. -/
theorem place_eq (start : Start) (curve : K → V) (L d : K) (added : List K) :
    (place curve L (start.nodes d) added).map Prod.fst = start.nodes d ++ added := by
  simp [place, Function.comp_def]

/-- The shape of the mesh after the last six elements were made equal. -/
theorem squash_spec (curve : K → V) (L : K) (m : List (K × V)) (hn : 7 ≤ m.length)
    (hpw : (m.map Prod.fst).Pairwise (· < ·)) (hL : ∀ (i : Nat) (p : K × V), i + 1 < m.length →
      m[i]? = some p → p.1 < L ∧ p.2 = curve p.1) :
    ∃ m', squash curve L m = .ok m' ∧ m'.length = m.length ∧
      (∀ i, i + 6 < m.length → m'[i]? = m[i]?) ∧
      (m'.map Prod.fst).Pairwise (· < ·) ∧ m'.getLast? = some (L, curve L) ∧
      (∀ p ∈ m', p.2 = curve p.1) ∧
      (∃ (a : K × V) (h : K), m[m.length - 7]? = some a ∧ 0 < h ∧ a.1 + 6 * h = L ∧
        ∀ i, i < 6 → m'[m.length - 6 + i]? = some (a.1 + ((i : K) + 1) * h, curve (a.1 + ((i : K) + 1) * h))) := by
  obtain ⟨a, ha⟩ : ∃ a, m[m.length - 7]? = some a := ⟨_, List.getElem?_eq_getElem (by omega)⟩
  have haL := (hL _ a (by omega) ha).1
  have hh : 0 < (L - a.1) / 6 := div_pos (sub_pos.2 haL) (by norm_num)
  have hlt : (m.take (m.length - 6)).length = m.length - 6 := by simp
  refine ⟨_, by unfold squash; rw [if_neg (by omega), ha], ?_, ?_, ?_, ?_, ?_, a, (L - a.1) / 6, ha, hh,
    by ring, ?_⟩
  · simp; omega
  · intro i hi
    rw [List.getElem?_append_left (by omega), List.getElem?_take, if_pos (by omega)]
  · rw [List.map_append, List.map_map, List.map_take]
    refine List.pairwise_append.2 ⟨hpw.sublist (List.take_sublist _ _), ?_, ?_⟩
    · refine List.pairwise_map.2 (List.pairwise_lt_range.imp ?_)
      intro i j hij
      have : (i : K) < j := by exact_mod_cast hij
      simp only [Function.comp]
      nlinarith
    · intro x hx y hy
      obtain ⟨i, hi, rfl⟩ := List.getElem_of_mem hx
      obtain ⟨j, -, rfl⟩ := List.mem_map.1 hy
      simp only [List.length_take, List.length_map] at hi
      have hxa : (m.map Prod.fst)[i]'(by simp; omega) ≤ a.1 := by
        have e : a.1 = (m.map Prod.fst)[m.length - 7]'(by simp; omega) := by
          rw [List.getElem?_eq_getElem (by omega)] at ha
          rw [List.getElem_map, Option.some.inj ha]
        rw [e]
        by_cases hi7 : i = m.length - 7
        · subst hi7; exact le_rfl
        · exact (List.pairwise_iff_getElem.1 hpw i (m.length - 7) _ _ (by omega)).le
      rw [List.getElem_take]
      have hj : (0 : K) ≤ j := Nat.cast_nonneg j
      simp only [Function.comp]
      have : 0 < ((j : K) + 1) * ((L - a.1) / 6) := mul_pos (by linarith) hh
      linarith
  · rw [List.getLast?_append, show (List.range 6) = [0, 1, 2, 3, 4, 5] from rfl]
    simp only [List.map_cons, List.map_nil, List.getLast?_cons_cons, List.getLast?_singleton,
      Option.some_or]
    have e : a.1 + (((5 : Nat) : K) + 1) * ((L - a.1) / 6) = L := by push_cast; ring
    rw [e]
  · intro p hp
    rcases List.mem_append.1 hp with hp | hp
    · obtain ⟨i, hi, rfl⟩ := List.getElem_of_mem hp
      simp only [List.length_take] at hi
      rw [List.getElem_take]
      exact (hL i _ (by omega) (List.getElem?_eq_getElem (by omega))).2
    · obtain ⟨j, -, rfl⟩ := List.mem_map.1 hp
      rfl
  · intro i hi
    rw [List.getElem?_append_right (by omega), hlt, Nat.add_sub_cancel_left, List.getElem?_map,
      List.getElem?_range hi]
    rfl

end Verif.Mesh
