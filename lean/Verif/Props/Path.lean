import Verif.Lemmas.Path
import Verif.Model.Preprocessor
import Mathlib.Tactic.NormNum
import Mathlib.Tactic.IntervalCases

/-! # Properties of the minimum curvature path -/

set_option autoImplicit false

namespace Verif.Path

open Verif.Road (Vec3)

variable {K : Type*}

/-! ## C133: stations -/

/-- C133, the part that holds. Stations are checked at both ends: on a closed circuit they start at the
start line (up to a tolerance, and are moved onto it) and end before the finish line; on an open one
they are within the track. Anything else throws, and an empty list is undefined. -/
theorem C133_ends_partial [Field K] [LinearOrder K] (length : K) (first : K) (rest : List K) :
    (checkStations true length (first :: rest) =
      if |first| ≤ 1 / 10 ^ 12 ∧ (first :: rest).getLast (by simp) ≤ length - 1 / 10 ^ 10
      then .ok (0 :: rest) else .throw) ∧
    (checkStations false length (first :: rest) =
      if -(1 / 10 ^ 12) ≤ first ∧ (first :: rest).getLast (by simp) ≤ length
      then .ok (first :: rest) else .throw) ∧
    ∀ closed, checkStations closed length ([] : List K) = .ub := by
  refine ⟨?_, ?_, fun _ => rfl⟩
  · unfold checkStations
    simp only [if_true, gt_iff_lt]
    by_cases h1 : |first| ≤ 1 / 10 ^ 12
    · rw [if_neg (not_lt.2 h1)]
      by_cases h2 : (first :: rest).getLast (by simp) ≤ length - 1 / 10 ^ 10
      · rw [if_neg (not_lt.2 h2), if_pos ⟨h1, h2⟩]
      · rw [if_pos (not_le.1 h2), if_neg (fun h => h2 h.2)]
    · rw [if_pos (not_le.1 h1), if_neg (fun h => h1 h.1)]
  · unfold checkStations
    simp only [Bool.false_eq_true, if_false, gt_iff_lt]
    by_cases h1 : -(1 / 10 ^ 12) ≤ first
    · rw [if_neg (not_lt.2 h1)]
      by_cases h2 : (first :: rest).getLast (by simp) ≤ length
      · rw [if_neg (not_lt.2 h2), if_pos ⟨h1, h2⟩]
      · rw [if_pos (not_le.1 h2), if_neg (fun h => h2 h.2)]
    · rw [if_pos (not_le.1 h1), if_neg (fun h => h1 h.1)]

/-- C133 is false: stations that go back, and stations beyond the finish line, are accepted in the
middle of the list, on closed and open circuits alike. -/
theorem C133_false :
    checkStations true (100 : ℚ) [0, 50, 20, 300, 80] = .ok [0, 50, 20, 300, 80] ∧
    checkStations false (100 : ℚ) [0, 50, 20, 300, 80] = .ok [0, 50, 20, 300, 80] := by
  decide +kernel

/-! ## C134: starting point and bounds -/

/-- C134. For all accepted stations the three vectors are written inside their size, and what the cost
function reads in them is: in the starting point the circuit itself and the distances between stations;
in the bounds the allowed ranges of the same quantities at the same points. -/
theorem C134_layout [Field K] [LinearOrder K] (closed : Bool) (deg length : K)
    (table : K → Station K) (s s' : List K) (h : checkStations closed length s = .ok s') :
    ∃ xs xl xu, problem closed deg length table s = .ok (s', xs, xl, xu) ∧
      xs.length = nVariables s'.length (nElements closed s'.length) ∧
      xl.length = xs.length ∧ xu.length = xs.length ∧
      load s'.length (nElements closed s'.length) xs
        = .ok (s'.map fun a => onCentreline (table a), steps closed length s') ∧
      load s'.length (nElements closed s'.length) xl
        = .ok (s'.map fun a => least deg (table a), (steps closed length s').map (1 / 20 * ·)) ∧
      load s'.length (nElements closed s'.length) xu
        = .ok (s'.map fun a => most deg (table a), (steps closed length s').map (5 * ·)) := by
  obtain ⟨xs, a1, a2, a3⟩ := load_written closed deg length table s' Range.start onCentreline id
    (fun _ => rfl) (fun _ => rfl)
  obtain ⟨xl, b1, b2, b3⟩ := load_written closed deg length table s' Range.lower (least deg)
    (1 / 20 * ·) (fun _ => rfl) (fun _ => rfl)
  obtain ⟨xu, c1, c2, c3⟩ := load_written closed deg length table s' Range.upper (most deg)
    (5 * ·) (fun _ => rfl) (fun _ => rfl)
  refine ⟨xs, xl, xu, ?_, a2, by rw [a2, b2], by rw [a2, c2], by simpa using a3, b3, c3⟩
  unfold problem
  rw [h]
  simp only [Res.bind_ok]
  rw [a1, b1, c1]
  rfl

/-- C134. The problem is built exactly for the accepted stations: when they are rejected it throws. -/
theorem C134_rejected [Field K] [LinearOrder K] (closed : Bool) (deg length : K)
    (table : K → Station K) (s : List K) (h : checkStations closed length s = .throw) :
    problem closed deg length table s = .throw := by
  unfold problem; rw [h]; rfl

/-- C134. Every vector of the advertised size can be loaded, with one value per point and per element;
a shorter one reads out of range. -/
theorem C134_solution (closed : Bool) (nPoints : Nat) (hn : 0 < nPoints) (x : List K) :
    (x.length = nVariables nPoints (nElements closed nPoints) → ∃ pts ds,
      load nPoints (nElements closed nPoints) x = .ok (pts, ds) ∧ pts.length = nPoints ∧
        ds.length = nElements closed nPoints) ∧
    (x.length < nVariables nPoints (nElements closed nPoints) →
      load nPoints (nElements closed nPoints) x = .ub) := by
  have hpt : ∀ i, 8 * i + 7 ≤ x.length → ∃ v, loadPoint x i = .ok v := by
    intro i hi
    unfold loadPoint nameEnd
    simp only [Name.val]
    rw [idx_of_lt (by omega), idx_of_lt (by omega), idx_of_lt (by omega), idx_of_lt (by omega),
      idx_of_lt (by omega), idx_of_lt (by omega), idx_of_lt (by omega)]
    exact ⟨_, rfl⟩
  have hnt : ∀ i, loadPoint x i ≠ .throw := by
    intro i
    unfold loadPoint
    have := @idx_ne_throw K x
    cases h0 : idx x (nameEnd * i + Name.n.val) <;> simp_all
    cases h1 : idx x (nameEnd * i + Name.yaw.val) <;> simp_all
    cases h2 : idx x (nameEnd * i + Name.pitch.val) <;> simp_all
    cases h3 : idx x (nameEnd * i + Name.roll.val) <;> simp_all
    cases h4 : idx x (nameEnd * i + Name.yawDot.val) <;> simp_all
    cases h5 : idx x (nameEnd * i + Name.pitchDot.val) <;> simp_all
    cases h6 : idx x (nameEnd * i + Name.rollDot.val) <;> simp_all
  have hE : nElements closed nPoints + 1 ≥ nPoints ∧ nElements closed nPoints ≤ nPoints := by
    unfold nElements; split <;> omega
  constructor
  · intro hx
    unfold nVariables nameEnd at hx
    have hm : ∃ pts, mapRes (loadPoint x) (List.range nPoints) = .ok pts := by
      cases hm : mapRes (loadPoint x) (List.range nPoints) with
      | ok pts => exact ⟨pts, rfl⟩
      | throw => exact absurd hm (mapRes_ne_throw fun i _ => hnt i)
      | ub =>
        have : Nonempty (Vars K) := ⟨(hpt 0 (by omega)).choose⟩
        choose! g hg using hpt
        rw [mapRes_map (g := g) _ (fun i hi => hg i (by
          have := List.mem_range.1 hi
          omega))] at hm
        cases hm
    obtain ⟨pts, hpts⟩ := hm
    have hd : mapRes (fun i => idx x (nameEnd * i + Name.delta.val))
        (List.range (nElements closed nPoints))
        = .ok ((List.range (nElements closed nPoints)).map fun i => x[8 * i + 7]?.getD (x[0]'(by omega))) := by
      refine mapRes_map _ fun i hi => ?_
      have := List.mem_range.1 hi
      have hlt : 8 * i + 7 < x.length := by omega
      simp only [nameEnd, Name.val]
      rw [idx_of_lt hlt, List.getElem?_eq_getElem hlt]; rfl
    refine ⟨pts, _, by unfold load; rw [hpts, hd]; rfl, by simpa using (mapRes_eq_ok hpts).1, by simp⟩
  · intro hx
    unfold nVariables nameEnd at hx
    unfold load
    cases hm : mapRes (loadPoint x) (List.range nPoints) with
    | ub => rfl
    | throw => exact absurd hm (mapRes_ne_throw fun i _ => hnt i)
    | ok pts =>
      rw [Res.bind_ok]
      cases hd : mapRes (fun i => idx x (nameEnd * i + Name.delta.val))
        (List.range (nElements closed nPoints)) with
      | ub => rfl
      | throw => exact absurd hd (mapRes_ne_throw fun i _ => idx_ne_throw)
      | ok ds =>
        exfalso
        obtain ⟨_, h2⟩ := mapRes_eq_ok hm
        obtain ⟨b, _, hb⟩ := h2 (nPoints - 1) (nPoints - 1) (List.getElem?_range (by omega))
        have hlast : 8 * (nPoints - 1) + 6 < x.length := by
          by_contra hcon
          unfold loadPoint at hb
          simp only [Res.bind_eq_ok, idx_eq_ok] at hb
          obtain ⟨_, _, _, _, _, _, _, _, _, _, _, _, v, hv, _⟩ := hb
          have := (List.getElem?_eq_some_iff.1 hv).1
          simp only [nameEnd, Name.val] at this
          omega
        by_cases hcl : nElements closed nPoints = nPoints
        · obtain ⟨_, h3⟩ := mapRes_eq_ok hd
          obtain ⟨b, _, hb⟩ := h3 (nPoints - 1) (nPoints - 1) (List.getElem?_range (by omega))
          simp only [idx_eq_ok] at hb
          have := (List.getElem?_eq_some_iff.1 hb).1
          simp only [nameEnd, Name.val] at this
          omega
        · omega

/-- C134. The bounds leave room for a path exactly when no station is behind the previous one (nor, on
a closed circuit, behind the finish line) and the edges of the track do not cross. -/
theorem C134_room [Field K] [LinearOrder K] [IsStrictOrderedRing K] (closed : Bool) (deg length : K)
    (hdeg : 0 ≤ deg) (table : K → Station K) (s s' xs xl xu : List K)
    (h : problem closed deg length table s = .ok (s', xs, xl, xu)) :
    (∃ x : List K, List.Forall₂ (· ≤ ·) xl x ∧ List.Forall₂ (· ≤ ·) x xu) ↔
      (∀ d ∈ steps closed length s', 0 ≤ d) ∧ ∀ a ∈ s', 0 ≤ (table a).nl + (table a).nr := by
  obtain ⟨xl', a1, a2, a3, a4⟩ := written closed deg length table s' Range.lower
  obtain ⟨xu', b1, b2, b3, b4⟩ := written closed deg length table s' Range.upper
  obtain ⟨hl, hu⟩ : xl = xl' ∧ xu = xu' := by
    unfold problem at h
    simp only [Res.bind_eq_ok] at h
    obtain ⟨s'', _, y, _, y1, hy1, y2, hy2, hh⟩ := h
    have hh := Res.ok.inj hh
    simp only [Prod.mk.injEq] at hh
    obtain ⟨rfl, rfl, rfl, rfl⟩ := hh
    rw [a1] at hy1; rw [b1] at hy2
    exact ⟨(Res.ok.inj hy1).symm, (Res.ok.inj hy2).symm⟩
  subst hl hu
  have hex : (∃ x : List K, List.Forall₂ (· ≤ ·) xl x ∧ List.Forall₂ (· ≤ ·) x xu) ↔
      ∀ (j : Nat) (a b : K), xl[j]? = some a → xu[j]? = some b → a ≤ b := by
    constructor
    · rintro ⟨x, h1, h2⟩ j a b ha hb
      have e1 := h1.length_eq
      have hj := (List.getElem?_eq_some_iff.1 ha)
      have hj2 := (List.getElem?_eq_some_iff.1 hb)
      have := List.forall₂_iff_get.1 h1
      have h1' := this.2 j hj.1 (by rw [← e1]; exact hj.1)
      have h2' := (List.forall₂_iff_get.1 h2).2 j (by rw [← e1]; exact hj.1) hj2.1
      simp only [List.get_eq_getElem] at h1' h2'
      rw [hj.2] at h1'; rw [hj2.2] at h2'
      exact h1'.trans h2'
    · intro hall
      refine ⟨xl, List.forall₂_same.2 fun _ _ => le_refl _, List.forall₂_iff_get.2 ⟨by rw [a2, b2], ?_⟩⟩
      intro j hj hj'
      exact hall j _ _ (List.getElem?_eq_getElem hj) (List.getElem?_eq_getElem hj')
  rw [hex]
  constructor
  · intro hall
    constructor
    · intro d hd
      obtain ⟨i, hi⟩ := List.mem_iff_getElem?.1 hd
      have := hall _ _ _ (a4 i d hi) (b4 i d hi)
      simp only [stepEntry] at this
      linarith
    · intro a ha
      obtain ⟨i, hi⟩ := List.mem_iff_getElem?.1 ha
      have e1 := a3 i a hi (.n, ⟨0, -(table a).nl, (table a).nr⟩) (by simp [pointEntries])
      have e2 := b3 i a hi (.n, ⟨0, -(table a).nl, (table a).nr⟩) (by simp [pointEntries])
      have := hall _ _ _ e1 e2
      simp only at this
      linarith
  · rintro ⟨hd, hw⟩ j a b ha hb
    have hj := (List.getElem?_eq_some_iff.1 ha).1
    rw [a2] at hj
    unfold nVariables nameEnd at hj
    have hE : nElements closed s'.length + 1 ≥ s'.length ∧ nElements closed s'.length ≤ s'.length := by
      unfold nElements; split <;> omega
    have hdiv : j = 8 * (j / 8) + j % 8 := by omega
    by_cases h7 : j % 8 = 7
    · have hlt : j / 8 < (steps closed length s').length := by rw [steps_length]; omega
      have hg := List.getElem?_eq_getElem hlt
      have e1 := a4 _ _ hg
      have e2 := b4 _ _ hg
      simp only [nameEnd, Name.val] at e1 e2
      rw [← h7, ← hdiv, ha] at e1
      rw [← h7, ← hdiv, hb] at e2
      obtain rfl := Option.some.inj e1
      obtain rfl := Option.some.inj e2
      have := hd _ (List.getElem_mem hlt)
      simp only [stepEntry]
      linarith
    · have hlt : j / 8 < s'.length := by omega
      have hg := List.getElem?_eq_getElem hlt
      have hwid := hw _ (List.getElem_mem hlt)
      have e1 := a3 _ _ hg
      have e2 := b3 _ _ hg
      have hcases : ∃ e ∈ pointEntries deg (table s'[j / 8]), e.1.val = j % 8 ∧ e.2.lower ≤ e.2.upper := by
        simp only [pointEntries, List.mem_cons, List.not_mem_nil, or_false, exists_eq_or_imp,
          exists_eq_left, Name.val]
        have h8 : j % 8 < 7 := by omega
        generalize j % 8 = m at h8
        interval_cases m <;> simp <;> linarith
      obtain ⟨e, he, hv, hle⟩ := hcases
      have e1 := e1 e he
      have e2 := e2 e he
      simp only [nameEnd] at e1 e2
      rw [hv, ← hdiv, ha] at e1
      rw [hv, ← hdiv, hb] at e2
      obtain rfl := Option.some.inj e1
      obtain rfl := Option.some.inj e2
      exact hle

/-- The stations of `C133_false` leave no room: the problem handed to the solver has no feasible point. -/
example (table : ℚ → Station ℚ) (xs xl xu : List ℚ)
    (h : problem true 1 100 table [0, 50, 20, 300, 80] = .ok ([0, 50, 20, 300, 80], xs, xl, xu)) :
    ¬ ∃ x : List ℚ, List.Forall₂ (· ≤ ·) xl x ∧ List.Forall₂ (· ≤ ·) x xu := by
  rw [C134_room true 1 100 (by norm_num) table _ _ xs xl xu h]
  intro hh
  have := hh.1 (-30) (by decide +kernel)
  norm_num at this

/-- Two stations of an open track and of a closed one. -/
example : problem (K := ℚ) false 1 100 (fun a => ⟨a, 2, 3, 4, 5, 6, 7, 8⟩) [10, 30]
    = .ok ([10, 30],
      [0, 10, 2, 3, 4, 5, 6, 20, 0, 30, 2, 3, 4, 5, 6],
      [-7, -50, -28, -27, 3, 4, 5, 1, -7, -30, -28, -27, 3, 4, 5],
      [8, 70, 32, 33, 5, 6, 7, 100, 8, 90, 32, 33, 5, 6, 7]) := by
  decide +kernel

example : (problem (K := ℚ) true 1 100 (fun a => ⟨a, 2, 3, 4, 5, 6, 7, 8⟩) [1 / 10 ^ 13, 30]).map
      (fun r => (r.1, r.2.1))
    = .ok ([0, 30], [0, 0, 2, 3, 4, 5, 6, 30, 0, 30, 2, 3, 4, 5, 6, 70]) := by
  decide +kernel

end Verif.Path
