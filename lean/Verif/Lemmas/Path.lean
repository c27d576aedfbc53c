import Verif.Spec.Path
import Verif.Lemmas.ResList
import Mathlib.Algebra.BigOperators.Intervals
import Mathlib.Tactic.Ring
import Mathlib.Tactic.Linarith
import Mathlib.Tactic.LinearCombination
import Mathlib.Tactic.FieldSimp

set_option autoImplicit false

namespace Verif.Path

variable {K : Type*}

theorem writeAll_spec (ws : List (Nat × K)) : ∀ (x : List K), (∀ w ∈ ws, w.1 < x.length) →
    ∃ x', writeAll ws x = .ok x' ∧ x'.length = x.length ∧
      (∀ j, (∀ w ∈ ws, w.1 ≠ j) → x'[j]? = x[j]?) ∧
      (∀ j v, (j, v) ∈ ws → (∀ w ∈ ws, w.1 = j → w.2 = v) → x'[j]? = some v) := by
  induction ws with
  | nil => intro x _; exact ⟨x, rfl, rfl, fun _ _ => rfl, fun _ _ h => by simp at h⟩
  | cons w ws ih =>
    intro x h
    have hw := h w (by simp)
    obtain ⟨x', h1, h2, h3, h4⟩ := ih (x.set w.1 w.2) (by
      intro w' hw'; rw [List.length_set]; exact h w' (by simp [hw']))
    refine ⟨x', ?_, by simpa using h2, ?_, ?_⟩
    · rw [writeAll, writeAt, if_pos hw]; exact h1
    · intro j hj
      rw [h3 j (fun w' hw' => hj w' (by simp [hw']))]
      exact List.getElem?_set_ne (hj w (by simp))
    · intro j v hm hu
      by_cases hex : ∃ w' ∈ ws, w'.1 = j
      · obtain ⟨w', hw', rfl⟩ := hex
        refine h4 _ _ ?_ (fun w'' hw'' e => hu w'' (by simp [hw'']) e)
        rw [← hu w' (by simp [hw']) rfl]; exact hw'
      · have hne : ∀ w' ∈ ws, w'.1 ≠ j := fun w' hw' e => hex ⟨w', hw', e⟩
        have hwj : w = (j, v) := by
          rcases List.mem_cons.1 hm with e | e
          · exact e.symm
          · exact absurd rfl (hne _ e)
        subst hwj
        rw [h3 j hne]
        simp [hw]

/-- What is written at `nameEnd * i + nm.val`. -/
def cell [Field K] (closed : Bool) (deg length : K) (table : K → Station K) (s : List K)
    (i : Nat) (nm : Name) : Option (Range K) :=
  match nm with
  | .delta => ((steps closed length s)[i]?).map stepEntry
  | nm => (s[i]?).bind fun a => ((pointEntries deg (table a)).find? fun e => e.1 = nm).map Prod.snd

theorem steps_length [Field K] (closed : Bool) (length : K) (s : List K) :
    (steps closed length s).length = nElements closed s.length := by
  unfold steps nElements
  cases closed <;> simp
  omega

theorem pos_inj {i i' : Nat} {nm nm' : Name}
    (h : nameEnd * i + nm.val = nameEnd * i' + nm'.val) : i = i' ∧ nm = nm' := by
  have h1 : nm.val < 8 := by cases nm <;> decide
  have h2 : nm'.val < 8 := by cases nm' <;> decide
  unfold nameEnd at h
  have hi : i = i' := by omega
  have hn : nm.val = nm'.val := by omega
  refine ⟨hi, ?_⟩
  revert hn
  cases nm <;> cases nm' <;> decide

theorem find_pointEntries [Field K] (deg : K) (p : Station K) (e : Name × Range K)
    (h : e ∈ pointEntries deg p) :
    e.1 ≠ .delta ∧ ((pointEntries deg p).find? fun e' => e'.1 = e.1) = some e := by
  simp only [pointEntries, List.mem_cons, List.not_mem_nil, or_false] at h
  rcases h with rfl | rfl | rfl | rfl | rfl | rfl | rfl <;> exact ⟨by simp, by simp [pointEntries]⟩

theorem cell_of_ne [Field K] (closed : Bool) (deg length : K) (table : K → Station K)
    (s : List K) (i : Nat) (nm : Name) (h : nm ≠ .delta) :
    cell closed deg length table s i nm = (s[i]?).bind fun a =>
      ((pointEntries deg (table a)).find? fun e => e.1 = nm).map Prod.snd := by
  cases nm <;> first | rfl | exact absurd rfl h

theorem steps_get_inner [Field K] (closed : Bool) (length : K) (s : List K) (i : Nat) (a b : K)
    (ha : s[i]? = some a) (hb : s[i + 1]? = some b) :
    (steps closed length s)[i]? = some (b - a) := by
  have ht : s.tail[i]? = some b := by rw [List.getElem?_tail]; exact hb
  unfold steps
  rw [List.getElem?_zipWith]
  cases closed with
  | false => simp [ha, ht]
  | true =>
    have hlt : i < s.tail.length := (List.getElem?_eq_some_iff.1 ht).1
    rw [if_pos rfl, List.getElem?_append_left hlt, ha, ht]

theorem steps_get_closing [Field K] (length : K) (s : List K) (b : K) (hb : s.getLast? = some b) :
    (steps true length s)[s.length - 1]? = some (length - b) := by
  have hb' : s[s.length - 1]? = some b := by rw [← hb, List.getLast?_eq_getElem?]
  unfold steps
  rw [List.getElem?_zipWith, if_pos rfl, List.getElem?_append_right (by simp), hb']
  simp

theorem mem_entries [Field K] (closed : Bool) (deg length : K) (table : K → Station K)
    (s : List K) (e : Nat × Range K) (h : e ∈ entries closed deg length table s) :
    ∃ i nm, e.1 = nameEnd * i + nm.val ∧ cell closed deg length table s i nm = some e.2 := by
  unfold entries at h
  rw [List.mem_append, List.mem_append] at h
  rcases h with (h | h) | h
  · obtain ⟨p, hp, he⟩ := List.mem_flatMap.1 h
    obtain ⟨e', he', rfl⟩ := List.mem_map.1 he
    obtain ⟨h1, h2⟩ := find_pointEntries deg _ e' he'
    refine ⟨p.2, e'.1, rfl, ?_⟩
    have hs : s[p.2]? = some p.1 := by
      have := List.mem_zipIdx_iff_getElem?.1 hp; exact this
    rw [cell_of_ne _ _ _ _ _ _ _ h1, hs]
    simp [h2]
  · obtain ⟨p, hp, rfl⟩ := List.mem_map.1 h
    have hs := List.mem_zipIdx_iff_getElem?.1 hp
    rw [List.getElem?_zip_eq_some] at hs
    refine ⟨p.2, .delta, rfl, ?_⟩
    rw [List.getElem?_tail] at hs
    simp [cell, steps_get_inner closed length s p.2 _ _ hs.1 hs.2]
  · cases closed with
    | false => simp at h
    | true =>
      rw [if_pos rfl] at h
      cases hb : s.getLast? with
      | none => simp [hb] at h
      | some b =>
        simp only [hb, List.mem_singleton] at h
        subst h
        exact ⟨s.length - 1, .delta, rfl, by simp [cell, steps_get_closing length s b hb]⟩

theorem entries_point [Field K] (closed : Bool) (deg length : K) (table : K → Station K)
    (s : List K) (i : Nat) (a : K) (ha : s[i]? = some a) (e : Name × Range K)
    (he : e ∈ pointEntries deg (table a)) :
    (nameEnd * i + e.1.val, e.2) ∈ entries closed deg length table s := by
  unfold entries
  rw [List.mem_append, List.mem_append]
  refine .inl (.inl (List.mem_flatMap.2 ⟨(a, i), List.mem_zipIdx_iff_getElem?.2 ha, ?_⟩))
  exact List.mem_map.2 ⟨e, he, rfl⟩

theorem entries_step [Field K] (closed : Bool) (deg length : K) (table : K → Station K)
    (s : List K) (i : Nat) (d : K) (hd : (steps closed length s)[i]? = some d) :
    (nameEnd * i + Name.delta.val, stepEntry d) ∈ entries closed deg length table s := by
  have hi := (List.getElem?_eq_some_iff.1 hd).1
  rw [steps_length] at hi
  unfold entries
  rw [List.mem_append, List.mem_append]
  by_cases h : i + 1 < s.length
  · have hb : s[i + 1]? = some s[i + 1] := List.getElem?_eq_getElem h
    have ha : s[i]? = some s[i] := List.getElem?_eq_getElem (by omega)
    rw [steps_get_inner closed length s i _ _ ha hb] at hd
    obtain rfl := Option.some.inj hd
    refine .inl (.inr (List.mem_map.2 ⟨((s[i], s[i + 1]), i), ?_, rfl⟩))
    rw [List.mem_zipIdx_iff_getElem?]
    rw [List.getElem?_zip_eq_some, List.getElem?_tail]
    exact ⟨ha, hb⟩
  · cases closed with
    | false => simp [nElements] at hi; omega
    | true =>
      simp only [nElements, if_true] at hi
      obtain rfl : i = s.length - 1 := by omega
      right
      have hne : s ≠ [] := by rintro rfl; simp at hi
      have hb := List.getLast?_eq_some_getLast hne
      rw [steps_get_closing length s _ hb] at hd
      obtain rfl := Option.some.inj hd
      simp [hb]

/-- Index of every write. -/
theorem entries_lt [Field K] (closed : Bool) (deg length : K) (table : K → Station K)
    (s : List K) (e : Nat × Range K) (h : e ∈ entries closed deg length table s) :
    e.1 < nVariables s.length (nElements closed s.length) := by
  obtain ⟨i, nm, h1, h2⟩ := mem_entries closed deg length table s e h
  rw [h1]
  unfold nVariables nameEnd
  by_cases hn : nm = .delta
  · subst hn
    simp only [cell, Option.map_eq_some_iff] at h2
    obtain ⟨d, hd, _⟩ := h2
    have hi := (List.getElem?_eq_some_iff.1 hd).1
    rw [steps_length] at hi
    simp only [Name.val]
    unfold nElements at *
    split at hi <;> simp_all <;> omega
  · rw [cell_of_ne _ _ _ _ _ _ _ hn, Option.bind_eq_some_iff] at h2
    obtain ⟨a, ha, _⟩ := h2
    have hi := (List.getElem?_eq_some_iff.1 ha).1
    have hv : nm.val < 7 := by cases nm <;> first | decide | exact absurd rfl hn
    unfold nElements
    split <;> omega

/-- The vector obtained by writing one of the three values of every entry. -/
theorem written [Field K] (closed : Bool) (deg length : K) (table : K → Station K)
    (s : List K) (f : Range K → K) :
    ∃ x, writeAll ((entries closed deg length table s).map fun e => (e.1, f e.2))
        (List.replicate (nVariables s.length (nElements closed s.length)) 0) = .ok x ∧
      x.length = nVariables s.length (nElements closed s.length) ∧
      (∀ (i : Nat) (a : K), s[i]? = some a → ∀ e ∈ pointEntries deg (table a),
        x[nameEnd * i + e.1.val]? = some (f e.2)) ∧
      (∀ (i : Nat) (d : K), (steps closed length s)[i]? = some d →
        x[nameEnd * i + Name.delta.val]? = some (f (stepEntry d))) := by
  obtain ⟨x, h1, h2, _, h4⟩ := writeAll_spec
    ((entries closed deg length table s).map fun e => (e.1, f e.2))
    (List.replicate (nVariables s.length (nElements closed s.length)) 0) (by
      intro w hw
      obtain ⟨e, he, rfl⟩ := List.mem_map.1 hw
      rw [List.length_replicate]
      exact entries_lt closed deg length table s e he)
  have key : ∀ e ∈ entries closed deg length table s, x[e.1]? = some (f e.2) := by
    intro e he
    refine h4 e.1 (f e.2) (List.mem_map.2 ⟨e, he, rfl⟩) ?_
    intro w hw hj
    obtain ⟨e', he', rfl⟩ := List.mem_map.1 hw
    obtain ⟨i, nm, a1, a2⟩ := mem_entries closed deg length table s e he
    obtain ⟨i', nm', b1, b2⟩ := mem_entries closed deg length table s e' he'
    simp only at hj
    rw [a1, b1] at hj
    obtain ⟨rfl, rfl⟩ := pos_inj hj
    rw [a2] at b2
    simp only
    rw [Option.some.inj b2]
  refine ⟨x, h1, by rw [h2, List.length_replicate], ?_, ?_⟩
  · intro i a ha e he
    exact key _ (entries_point closed deg length table s i a ha e he)
  · intro i d hd
    exact key _ (entries_step closed deg length table s i d hd)

/-- Loading such a vector. -/
theorem load_written [Field K] (closed : Bool) (deg length : K) (table : K → Station K)
    (s : List K) (f : Range K → K) (g : Station K → Vars K) (gd : K → K)
    (hg : ∀ p, (pointEntries deg p).map (fun e => f e.2)
      = [(g p).n, (g p).yaw, (g p).pitch, (g p).roll, (g p).yawDot, (g p).pitchDot, (g p).rollDot])
    (hd : ∀ d, f (stepEntry d) = gd d) :
    ∃ x, writeAll ((entries closed deg length table s).map fun e => (e.1, f e.2))
        (List.replicate (nVariables s.length (nElements closed s.length)) 0) = .ok x ∧
      x.length = nVariables s.length (nElements closed s.length) ∧
      load s.length (nElements closed s.length) x
        = .ok (s.map fun a => g (table a), (steps closed length s).map gd) := by
  obtain ⟨x, h1, h2, h3, h4⟩ := written closed deg length table s f
  refine ⟨x, h1, h2, ?_⟩
  have hp : mapRes (loadPoint x) (List.range s.length) = .ok (s.map fun a => g (table a)) := by
    rw [mapRes_map (g := fun i => (s.map fun a => g (table a)).getD i ⟨0, 0, 0, 0, 0, 0, 0⟩)]
    · congr 1
      refine List.ext_getElem (by simp) fun i _ h' => ?_
      have h' : i < s.length := by simpa using h'
      simp [h']
    · intro i hi
      have hi := List.mem_range.1 hi
      have ha : s[i]? = some s[i] := List.getElem?_eq_getElem hi
      have hget := h3 i _ ha
      have hgp := hg (table s[i])
      simp only [pointEntries, List.map_cons, List.map_nil, List.cons.injEq, and_true] at hgp
      obtain ⟨e0, e1, e2, e3, e4, e5, e6⟩ := hgp
      simp only [pointEntries, List.mem_cons, List.not_mem_nil, or_false, forall_eq_or_imp,
        forall_eq] at hget
      obtain ⟨g0, g1, g2, g3, g4, g5, g6⟩ := hget
      have conv : ∀ {j : Nat} {v : K}, x[j]? = some v → idx x j = .ok v := fun h => by simp [h]
      unfold loadPoint
      rw [conv g0, conv g1, conv g2, conv g3, conv g4, conv g5, conv g6]
      simp only [Res.bind_ok, e0, e1, e2, e3, e4, e5, e6]
      simp [hi]
  have hs : mapRes (fun i => idx x (nameEnd * i + Name.delta.val))
      (List.range (nElements closed s.length)) = .ok ((steps closed length s).map gd) := by
    rw [mapRes_map (g := fun i => ((steps closed length s).map gd).getD i 0)]
    · congr 1
      refine List.ext_getElem (by simp [steps_length]) fun i _ h' => ?_
      have h' : i < (steps closed length s).length := by simpa using h'
      simp [h']
    · intro i hi
      have hi := List.mem_range.1 hi
      rw [← steps_length closed length] at hi
      rw [idx_eq_ok, h4 i _ (List.getElem?_eq_getElem hi), hd]
      simp [hi]
  unfold load
  rw [hp, hs]
  rfl

/-! ### Cost and rows -/

theorem inner_range (ds : Nat → ℝ) (node : Nat → Node) :
    ∀ (m i m' : Nat) (cost : ℝ), m ≤ m' →
    inner ((List.range' i m').map ds) (node i) ((List.range' (i + 1) m).map node) cost
      = .ok (cost + ∑ j ∈ Finset.Ico i (i + m), elementCost (ds j) (node j) (node (j + 1)),
          (List.range' i m).flatMap fun j => rows (ds j) (node j) (node (j + 1)))
  | 0, i, m', cost, _ => by
    simp only [List.range'_zero, List.map_nil, Finset.Ico_self, Finset.sum_empty, add_zero,
      List.flatMap_nil]
    cases (List.range' i m').map ds <;> rfl
  | m + 1, i, m', cost, h => by
    obtain ⟨m'', rfl⟩ : ∃ m'', m' = m'' + 1 := ⟨m' - 1, by omega⟩
    rw [List.range'_succ, List.map_cons, List.range'_succ, List.map_cons, inner,
      inner_range ds node m (i + 1) m'' _ (by omega), Res.map_ok]
    congr 2
    rw [Finset.sum_eq_sum_Ico_succ_bot (by omega : i < i + (m + 1))]
    rw [show i + 1 + m = i + (m + 1) by ring]
    ring

theorem inner_course (c : Course) (hn : 0 < c.n) (closed : Bool) :
    ∃ rest, c.nodes = c.node 0 :: rest ∧
      inner (c.lengths closed) (c.node 0) rest 0
        = .ok (∑ j ∈ Finset.range (c.n - 1), elementCost (c.ds j) (c.node j) (c.node (j + 1)),
          (List.range (c.n - 1)).flatMap fun j => rows (c.ds j) (c.node j) (c.node (j + 1))) := by
  obtain ⟨m, hm⟩ : ∃ m, c.n = m + 1 := ⟨c.n - 1, by omega⟩
  refine ⟨(List.range' 1 m).map c.node, ?_, ?_⟩
  · rw [Course.nodes, hm, List.range_eq_range', List.range'_succ, List.map_cons]
  · have h := inner_range c.ds c.node m 0 (nElements closed c.n) 0 (by
      unfold nElements; split <;> omega)
    rw [Course.lengths, List.range_eq_range']
    rw [show (1 : Nat) = 0 + 1 from rfl, h, hm]
    simp only [zero_add, Nat.add_sub_cancel, List.range_eq_range', Nat.Ico_zero_eq_range]

theorem nodes_getLast (c : Course) (hn : 0 < c.n) : c.nodes.getLast? = some (c.node (c.n - 1)) := by
  obtain ⟨m, hm⟩ : ∃ m, c.n = m + 1 := ⟨c.n - 1, by omega⟩
  rw [Course.nodes, hm, List.range_succ, List.map_append]
  simp

theorem lengths_getLast (c : Course) (hn : 0 < c.n) :
    (c.lengths true).getLast? = some (c.ds (c.n - 1)) := by
  obtain ⟨m, hm⟩ : ∃ m, c.n = m + 1 := ⟨c.n - 1, by omega⟩
  rw [Course.lengths, nElements, hm, if_pos rfl, List.range_succ, List.map_append]
  simp

theorem evaluate_closed (c : Course) (hn : 0 < c.n) (direction : ℤ) :
    evaluate true direction (c.lengths true) c.nodes = .ok
      ((∑ j ∈ Finset.range (c.n - 1), elementCost (c.ds j) (c.node j) (c.node (j + 1)))
          + closingCost (c.ds (c.n - 1)) (c.node (c.n - 1)) (c.node 0),
        ((List.range (c.n - 1)).flatMap fun j => rows (c.ds j) (c.node j) (c.node (j + 1)))
          ++ closingRows direction (c.ds (c.n - 1)) (c.node (c.n - 1)) (c.node 0)) := by
  obtain ⟨rest, h1, h3⟩ := inner_course c hn true
  have h4 := nodes_getLast c hn
  have h5 := lengths_getLast c hn
  unfold evaluate
  rw [h4, h5, h1]
  simp only
  rw [h3, Res.bind_ok, if_pos trivial]

theorem evaluate_open (c : Course) (hn : 0 < c.n) (direction : ℤ) :
    evaluate false direction (c.lengths false) c.nodes = .ok
      (∑ j ∈ Finset.range (c.n - 1), elementCost (c.ds j) (c.node j) (c.node (j + 1)),
        (List.range (c.n - 1)).flatMap fun j => rows (c.ds j) (c.node j) (c.node (j + 1))) := by
  obtain ⟨rest, h1, h3⟩ := inner_course c hn false
  have h4 := nodes_getLast c hn
  unfold evaluate
  rw [h4, h1]
  simp only
  rw [h3, Res.bind_ok, if_neg (by simp)]

/-- The direction of travel in the rows: pitch with the sign changed. -/
noncomputable def codeHeading (yaw pitch : ℝ) : Road.Vec3 := heading yaw (-pitch)

theorem rows_zero (ds : ℝ) (a b : Node) :
    (∀ r ∈ rows ds a b, r = 0) ↔ Follows codeHeading 0 ds a b := by
  simp only [rows, List.mem_cons, List.not_mem_nil, or_false, forall_eq_or_imp, forall_eq, Follows,
    codeHeading, heading, Real.cos_neg, Real.sin_neg, neg_neg, Prod.ext_iff, add_zero]
  constructor
  · rintro ⟨h1, h2, h3, h4, h5, h6⟩
    exact ⟨⟨by linear_combination h1, by linear_combination h2, by linear_combination h3⟩,
      by linear_combination h4, by linear_combination h5, by linear_combination h6⟩
  · rintro ⟨⟨h1, h2, h3⟩, h4, h5, h6⟩
    exact ⟨by linear_combination h1, by linear_combination h2, by linear_combination h3,
      by linear_combination h4, by linear_combination h5, by linear_combination h6⟩

theorem closingRows_zero (direction : ℤ) (ds : ℝ) (a b : Node) :
    (∀ r ∈ closingRows direction ds a b, r = 0) ↔
      Follows codeHeading (2 * Real.pi * direction) ds a b := by
  simp only [closingRows, List.mem_cons, List.not_mem_nil, or_false, forall_eq_or_imp, forall_eq,
    Follows, codeHeading, heading, Real.cos_neg, Real.sin_neg, neg_neg, Prod.ext_iff]
  constructor
  · rintro ⟨h1, h2, h3, h4, h5, h6⟩
    exact ⟨⟨by linear_combination h1, by linear_combination h2, by linear_combination h3⟩,
      by linear_combination h4, by linear_combination h5, by linear_combination h6⟩
  · rintro ⟨⟨h1, h2, h3⟩, h4, h5, h6⟩
    exact ⟨by linear_combination h1, by linear_combination h2, by linear_combination h3,
      by linear_combination h4, by linear_combination h5, by linear_combination h6⟩

end Verif.Path
