import Verif.Lemmas.Control
import Mathlib.Tactic.NormNum
import Mathlib.Data.Rat.Defs
import Mathlib.Algebra.Order.Field.Rat

/-! Property theorems C19, C20, C21, C22: control variables. -/

set_option autoImplicit false

namespace Verif.Control

variable {K : Type*}

/-! ## C19 -/

/-- C19: validation accepts exactly the lists of consistent controls (otherwise it throws, never
undefined behaviour), and the validated controls differ from the given ones only in that the
dissipation of non-full-mesh controls is zero. -/
theorem C19_validation_accepts_iff [Zero K] [LinearOrder K] (cs : List (CV K)) :
    ((∀ c ∈ cs, Consistent c) → ∃ st, check cs = .ok (cs.map meaningful, st)) ∧
    ((¬ ∀ c ∈ cs, Consistent c) → check cs = .throw) := by
  constructor
  · intro h
    have h1 := checkInputs_ok cs h
    have h2 := statsLoop_ok (cs.map meaningful) (by
      intro c hc
      obtain ⟨d, hd, rfl⟩ := List.mem_map.1 hc
      cases h d hd with
      | dontOptimize k | constant k | hypermesh k | fullMesh k => simp [meaningful, k]) ⟨0, 0, 0⟩
    exact ⟨_, by simp [check, h1, computeStatistics, h2]; rfl⟩
  · intro h
    obtain ⟨pre, c, post, _, _, _, hres⟩ := checkInputs_throw cs h
    simp [check, hres]

/-- C19: validating twice is the same as validating once. -/
theorem C19_validation_idempotent [Zero K] [LinearOrder K] (cs cs' : List (CV K)) (st : Stats)
    (h : check cs = .ok (cs', st)) : check cs' = .ok (cs', st) := by
  by_cases hc : ∀ c ∈ cs, Consistent c
  · have h1 := checkInputs_ok cs hc
    have hcs' : cs' = cs.map meaningful := by
      simp only [check, h1] at h
      cases hs : computeStatistics (cs.map meaningful) <;> simp [hs] at h
      exact h.1.symm
    have hc' : ∀ c ∈ cs', Consistent c := by
      rw [hcs']
      intro c hm
      obtain ⟨d, hd, rfl⟩ := List.mem_map.1 hm
      exact (hc d hd).meaningful
    have h2 := checkInputs_ok cs' hc'
    have h3 : cs'.map meaningful = cs' := by
      rw [hcs', List.map_map]
      apply List.map_congr_left
      intro c _
      exact meaningful_idem c
    rw [h3] at h2
    simp only [check, h1] at h
    simp only [check, h2]
    rw [← hcs'] at h
    simpa using h
  · have := (C19_validation_accepts_iff cs).2 hc
    rw [this] at h; simp at h

/-- C19: what a rejected validation leaves behind: the controls before the first inconsistent
one have had their dissipation reset, it and the following ones are untouched. -/
theorem C19_rejected_effect [Zero K] [LinearOrder K] (cs : List (CV K))
    (h : ¬ ∀ c ∈ cs, Consistent c) :
    ∃ pre c post, cs = pre ++ c :: post ∧ (∀ d ∈ pre, Consistent d) ∧ ¬ Consistent c ∧
      (checkInputs cs).1 = pre.map meaningful ++ c :: post := by
  obtain ⟨pre, c, post, e, h1, h2, h3⟩ := checkInputs_throw cs h
  exact ⟨pre, c, post, e, h1, h2, by rw [h3]⟩

/-- C19: the objects built by the five factories are consistent under the documented sizes. -/
theorem C19_factories_consistent [Zero K] [LinearOrder K] (c : K) (s cs dcs : List K) (diss : K)
    (hd : 0 ≤ diss) :
    Consistent (createDontOptimize : CV K) ∧ Consistent (createConstant c) ∧
    (Consistent (createHypermesh s cs) ↔ s.length = cs.length) ∧
    Consistent (createFullMesh cs diss) ∧
    (Consistent (createFullMeshD cs dcs diss) ↔ dcs = [] ∨ dcs.length = cs.length) := by
  refine ⟨.dontOptimize rfl rfl rfl rfl, .constant rfl rfl rfl rfl, ⟨?_, ?_⟩,
    .fullMesh rfl rfl (Or.inl rfl) hd, ⟨?_, ?_⟩⟩
  · intro h
    cases h with
    | hypermesh k h1 h3 => exact h1
    | _ k => simp [createHypermesh] at k
  · intro h; exact .hypermesh rfl h rfl
  · intro h
    cases h with
    | fullMesh k h1 h2 h3 => exact h2
    | _ k => simp [createFullMeshD] at k
  · intro h; exact .fullMesh rfl rfl h hd

/-- a mix of the four kinds -/
def mix : List (CV ℚ) :=
  [createDontOptimize, createConstant 3, createHypermesh [0, 10, 20] [1, 2, 3],
    ⟨.fullMesh, [], [5, 6, 7], [], 1/10⟩]

theorem mix_consistent : ∀ c ∈ mix, Consistent c := by
  intro c hc
  simp only [mix, List.mem_cons, List.not_mem_nil, or_false] at hc
  rcases hc with rfl | rfl | rfl | rfl
  · exact .dontOptimize rfl rfl rfl rfl
  · exact .constant rfl rfl rfl rfl
  · exact .hypermesh rfl rfl rfl
  · exact .fullMesh rfl rfl (Or.inl rfl) (by norm_num)

example : ∃ st, check mix = .ok (mix.map meaningful, st) :=
  (C19_validation_accepts_iff mix).1 mix_consistent

example : check [(⟨.constant, [], [], [], 0⟩ : CV ℚ)] = .throw :=
  (C19_validation_accepts_iff _).2 (by
    intro h
    cases h _ (List.mem_singleton.2 rfl) with
    | constant k h1 h2 h3 => simp at h2
    | _ k => simp at k)

example : check (mix.map meaningful) = .ok (mix.map meaningful, ⟨1, 3, 1⟩) :=
  C19_validation_idempotent mix _ _ (by decide +kernel)

/-! ## C20 -/

/-- C20: for an increasing hypermesh with one value per checkpoint, the value at `s` is the one
of the last checkpoint not after `s`; before the first checkpoint the call throws. There is no
other outcome (in particular no out-of-range access). -/
theorem C20_piecewise_constant [Zero K] [LinearOrder K] (c : CV K) (x0 s : K)
    (hk : c.kind = .hypermesh) (hsz : c.sHypermesh.length = c.controls.length)
    (hinc : c.sHypermesh.Pairwise (· < ·)) (h0 : c.sHypermesh[0]? = some x0) :
    (x0 ≤ s → ∃ v, hypermeshValue c s = .ok v ∧ PiecewiseConstantAt c.sHypermesh c.controls s v) ∧
    (s < x0 → hypermeshValue c s = .throw) := by
  constructor
  · intro hs
    obtain ⟨i, x, hi, hx, hn⟩ := exists_last_checkpoint hinc h0 hs
    have hlt := (List.getElem?_eq_some_iff.1 hi).1
    have hv : c.controls[i]? = some (c.controls[i]'(by omega)) := List.getElem?_eq_getElem _
    refine ⟨_, ?_, i, x, hi, hx, hn, hv⟩
    simp [hypermeshValue, hk, hypermeshPosition_ok hinc hi hx hn]
  · intro hs
    simp [hypermeshValue, hk, hypermeshPosition_throw hinc h0 hs]

/-- C20: right-continuity/constancy: between two neighbouring checkpoints the value does not
change, and it is the left checkpoint's one. -/
theorem C20_constant_between_checkpoints [Zero K] [LinearOrder K] (c : CV K) (i : Nat)
    (a b v s : K) (hk : c.kind = .hypermesh) (hinc : c.sHypermesh.Pairwise (· < ·))
    (ha : c.sHypermesh[i]? = some a) (hb : c.sHypermesh[i+1]? = some b)
    (hv : c.controls[i]? = some v) (h1 : a ≤ s) (h2 : s < b) :
    hypermeshValue c s = .ok v := by
  have hn : ∀ j y, i < j → c.sHypermesh[j]? = some y → s < y := by
    intro j y hj hy
    obtain ⟨hjl, rfl⟩ := List.getElem?_eq_some_iff.1 hy
    obtain ⟨hbl, rfl⟩ := List.getElem?_eq_some_iff.1 hb
    rcases Nat.lt_or_ge (i+1) j with hl | hg
    · exact lt_trans h2 (List.pairwise_iff_getElem.1 hinc _ _ hbl hjl hl)
    · have : j = i + 1 := by omega
      subst this; exact h2
  simp [hypermeshValue, hk, hypermeshPosition_ok hinc ha h1 hn, idx, hv]

/-- C20, disagreement: validation accepts a hypermesh that is empty, and evaluating such a
control is undefined behaviour (the error message reads `s_hypermesh.front()`). -/
theorem C20_empty_hypermesh_ub : ∃ (c : CV ℚ), Consistent c ∧ c.kind = .hypermesh ∧
    ∀ s, hypermeshValue c s = .ub :=
  ⟨createHypermesh [] [], .hypermesh rfl rfl rfl, rfl, fun s => by
    simp [hypermeshValue, createHypermesh, hypermeshPosition, upperBound, upperBoundLoop, idx]⟩

/-- C20, disagreement: validation accepts a hypermesh that is not sorted, and then the value
returned is not the one of the last checkpoint not after `s`. -/
theorem C20_unsorted_hypermesh_accepted : ∃ (c : CV ℚ) (s v : ℚ), Consistent c ∧
    c.kind = .hypermesh ∧ hypermeshValue c s = .ok v ∧
    ¬ PiecewiseConstantAt c.sHypermesh c.controls s v := by
  refine ⟨createHypermesh [0, 20, 10] [1, 2, 3], 15, 1, .hypermesh rfl rfl rfl, rfl, by decide +kernel, ?_⟩
  rintro ⟨i, x, hi, hx, hn, hv⟩
  have h2 : i = 0 := by
    simp only [createHypermesh] at hv
    match i, hv with
    | 0, _ => rfl
    | 1, hv => simp at hv
    | 2, hv => simp at hv
    | (k+3), hv => simp at hv
  subst h2
  have := hn 2 10 (by norm_num) rfl
  norm_num at this

/-- C20, disagreement: the variant returning value and derivative is undefined behaviour on
every validated hypermesh control (whenever `s` is not before the first checkpoint). -/
theorem C20_value_and_derivative_ub [Zero K] [LinearOrder K] (c : CV K) (x0 s : K)
    (hc : Consistent c) (hk : c.kind = .hypermesh) (hinc : c.sHypermesh.Pairwise (· < ·))
    (h0 : c.sHypermesh[0]? = some x0) (hs : x0 ≤ s) : hypermeshValueAndDerivative c s = .ub := by
  cases hc with
  | hypermesh k hsz hd =>
    obtain ⟨i, x, hi, hx, hn⟩ := exists_last_checkpoint hinc h0 hs
    have hlt := (List.getElem?_eq_some_iff.1 hi).1
    have hv : c.controls[i]? = some (c.controls[i]'(by omega)) := List.getElem?_eq_getElem _
    simp [hypermeshValueAndDerivative, hk, hypermeshPosition_ok hinc hi hx hn, idx, hv, hd]
  | dontOptimize k | constant k | fullMesh k => simp [hk] at k

example : ∃ v, hypermeshValue (createHypermesh [0, 10, 20] [(1 : ℚ), 2, 3]) 15 = .ok v ∧
    PiecewiseConstantAt [0, 10, 20] [(1 : ℚ), 2, 3] 15 v :=
  (C20_piecewise_constant (createHypermesh [0, 10, 20] [(1 : ℚ), 2, 3]) 0 15 rfl rfl
    (by simp [createHypermesh]; norm_num) rfl).1 (by norm_num)

example : hypermeshValue (createHypermesh [0, 10, 20] [(1 : ℚ), 2, 3]) 10 = .ok 2 :=
  C20_constant_between_checkpoints _ 1 10 20 2 10 rfl (by simp [createHypermesh]; norm_num) rfl rfl rfl
    (by norm_num) (by norm_num)

example : hypermeshValueAndDerivative (createHypermesh [0, 10, 20] [(1 : ℚ), 2, 3]) 10 = .ub :=
  C20_value_and_derivative_ub _ 0 10 (.hypermesh rfl rfl rfl) rfl (by simp [createHypermesh]; norm_num) rfl
    (by norm_num)

/-! ## C21 -/

/-- What evaluation at node `i` needs: full-mesh controls have a value (and, if `deriv`, a
derivative) for node `i`; hypermeshes increase and start at or before `s`. -/
def Evaluable [LinearOrder K] (deriv : Bool) (c : CV K) (i : Nat) (s : K) : Prop :=
  (c.kind = .fullMesh → i < c.controls.length ∧ (deriv = true → i < c.dcontrolsDt.length)) ∧
  (c.kind = .hypermesh → c.sHypermesh.Pairwise (· < ·) ∧ ∃ x0, c.sHypermesh[0]? = some x0 ∧ x0 ≤ s)

/-- C21: for validated controls, evaluation at a node gives each control its expected value. -/
theorem C21_control_array [Zero K] [LinearOrder K] (cs : List (CV K)) (ds : List K) (i : Nat)
    (s : K) (hlen : cs.length = ds.length) (hc : ∀ c ∈ cs, Consistent c)
    (he : ∀ c ∈ cs, Evaluable false c i s) :
    ∃ vs, controlArrayAtS cs ds i s = .ok vs ∧ vs.length = cs.length ∧
      ∀ (j : Nat) c d v, cs[j]? = some c → ds[j]? = some d → vs[j]? = some v → ExpectedControl c d i s v := by
  induction cs generalizing ds with
  | nil => exact ⟨[], by simp [controlArrayAtS], rfl, by simp⟩
  | cons c cs ih =>
    match ds, hlen with
    | d :: ds, hlen =>
      obtain ⟨vs, h1, h2, h3⟩ := ih ds (by simpa using hlen)
        (fun c hm => hc c (List.mem_cons_of_mem _ hm)) (fun c hm => he c (List.mem_cons_of_mem _ hm))
      have hone : ∃ v, controlAt c d i s = .ok v ∧ ExpectedControl c d i s v := by
        obtain ⟨hf, hh⟩ := he c (by simp)
        cases hc c (by simp) with
        | dontOptimize k => exact ⟨d, by simp [controlAt, k], by simp [ExpectedControl, k]⟩
        | constant k _ h2 =>
          match hcc : c.controls, h2 with
          | [v], _ => exact ⟨v, by simp [controlAt, k, hcc], by simp [ExpectedControl, k, hcc]⟩
        | hypermesh k hsz hd =>
          obtain ⟨hinc, x0, h0, hs⟩ := hh k
          obtain ⟨v, hv, hp⟩ := (C20_piecewise_constant c x0 s k hsz hinc h0).1 hs
          exact ⟨v, by simp [controlAt, k, hv], by simpa [ExpectedControl, k] using hp⟩
        | fullMesh k =>
          have hi := (hf k).1
          exact ⟨c.controls[i], by simp [controlAt, k, hi],
            by simp [ExpectedControl, k, hi]⟩
      obtain ⟨v, hv, hev⟩ := hone
      refine ⟨v :: vs, by simp [controlArrayAtS, hv, h1], by simp [h2], ?_⟩
      intro j c' d' v' hj1 hj2 hj3
      cases j with
      | zero =>
        simp only [List.getElem?_cons_zero, Option.some.injEq] at hj1 hj2 hj3
        subst hj1; subst hj2; subst hj3; exact hev
      | succ j =>
        simp only [List.getElem?_cons_succ] at hj1 hj2 hj3
        exact h3 j c' d' v' hj1 hj2 hj3

/-- C21: the variant with derivatives gives the same values, and zero derivative for all but
full-mesh controls. -/
theorem C21_control_array_and_derivative [Zero K] [LinearOrder K] (cs : List (CV K)) (ds : List K)
    (i : Nat) (s : K) (hlen : cs.length = ds.length) (hc : ∀ c ∈ cs, Consistent c)
    (he : ∀ c ∈ cs, Evaluable true c i s) :
    ∃ vs, controlArrayAndDerivativeAtS cs ds i s = .ok vs ∧ vs.length = cs.length ∧
      ∀ (j : Nat) c d v dv, cs[j]? = some c → ds[j]? = some d → vs[j]? = some (v, dv) →
        ExpectedControl c d i s v ∧ ExpectedDerivative c i dv := by
  induction cs generalizing ds with
  | nil => exact ⟨[], by simp [controlArrayAndDerivativeAtS], rfl, by simp⟩
  | cons c cs ih =>
    match ds, hlen with
    | d :: ds, hlen =>
      obtain ⟨vs, h1, h2, h3⟩ := ih ds (by simpa using hlen)
        (fun c hm => hc c (List.mem_cons_of_mem _ hm)) (fun c hm => he c (List.mem_cons_of_mem _ hm))
      have hone : ∃ v dv, controlAndDerivativeAt c d i s = .ok (v, dv) ∧
          ExpectedControl c d i s v ∧ ExpectedDerivative c i dv := by
        obtain ⟨hf, hh⟩ := he c (by simp)
        cases hc c (by simp) with
        | dontOptimize k =>
          exact ⟨d, 0, by simp [controlAndDerivativeAt, k], by simp [ExpectedControl, k],
            by simp [ExpectedDerivative, k]⟩
        | constant k _ h2 =>
          match hcc : c.controls, h2 with
          | [v], _ =>
            exact ⟨v, 0, by simp [controlAndDerivativeAt, k, hcc, idx],
              by simp [ExpectedControl, k, hcc], by simp [ExpectedDerivative, k]⟩
        | hypermesh k hsz hd =>
          obtain ⟨hinc, x0, h0, hs⟩ := hh k
          obtain ⟨v, hv, hp⟩ := (C20_piecewise_constant c x0 s k hsz hinc h0).1 hs
          exact ⟨v, 0, by simp [controlAndDerivativeAt, k, hv],
            by simpa [ExpectedControl, k] using hp, by simp [ExpectedDerivative, k]⟩
        | fullMesh k =>
          have hi := (hf k).1
          have hj := (hf k).2 rfl
          exact ⟨c.controls[i], c.dcontrolsDt[i], by simp [controlAndDerivativeAt, k, idx, hi, hj],
            by simp [ExpectedControl, k, hi], by simp [ExpectedDerivative, k, hj]⟩
      obtain ⟨v, dv, hv, hev⟩ := hone
      refine ⟨(v, dv) :: vs, by simp [controlArrayAndDerivativeAtS, hv, h1], by simp [h2], ?_⟩
      intro j c' d' v' dv' hj1 hj2 hj3
      cases j with
      | zero =>
        simp only [List.getElem?_cons_zero, Option.some.injEq, Prod.mk.injEq] at hj1 hj2 hj3
        obtain ⟨rfl, rfl⟩ := hj3
        subst hj1; subst hj2; exact hev
      | succ j =>
        simp only [List.getElem?_cons_succ] at hj1 hj2 hj3
        exact h3 j c' d' v' dv' hj1 hj2 hj3

theorem mix_evaluable : ∀ c ∈ mix, Evaluable false c 1 (12 : ℚ) := by
  intro c hc
  simp only [mix, List.mem_cons, List.not_mem_nil, or_false] at hc
  rcases hc with rfl | rfl | rfl | rfl
  · exact ⟨by simp [createDontOptimize], by simp [createDontOptimize]⟩
  · exact ⟨by simp [createConstant], by simp [createConstant]⟩
  · exact ⟨by simp [createHypermesh], fun _ => ⟨by simp [createHypermesh]; norm_num, 0, rfl, by norm_num⟩⟩
  · exact ⟨by simp, by simp⟩

example : ∃ vs, controlArrayAtS mix [9, 9, 9, 9] 1 12 = .ok vs ∧ vs.length = mix.length :=
  have ⟨vs, h1, h2, _⟩ := C21_control_array mix [9, 9, 9, 9] 1 12 rfl mix_consistent mix_evaluable
  ⟨vs, h1, h2⟩

example : controlArrayAtS mix [9, 9, 9, 9] 1 12 = .ok [9, 3, 2, 6] := by decide +kernel

example : ∃ vs, controlArrayAndDerivativeAtS [createFullMeshD [1, 2] [3, (4:ℚ)] 0] [9] 1 12 = .ok vs :=
  have ⟨vs, h1, _⟩ := C21_control_array_and_derivative [createFullMeshD [1, 2] [3, (4:ℚ)] 0] [9] 1 12 rfl
    (by intro c hc; simp only [List.mem_singleton] at hc; subst hc
        exact .fullMesh rfl rfl (Or.inr rfl) (le_refl _))
    (by intro c hc; simp only [List.mem_singleton] at hc; subst hc
        exact ⟨by simp [createFullMeshD], by simp [createFullMeshD]⟩)
  ⟨vs, h1⟩

/-! ## C22 -/

/-- C22: the statistics after validation are the number of constant controls, the total number
of hypermesh checkpoints (= hypermesh values) and the number of full-mesh controls. -/
theorem C22_statistics [Zero K] [LinearOrder K] (cs cs' : List (CV K)) (st : Stats)
    (h : check cs = .ok (cs', st)) :
    st.nConstant = (cs.filter (fun c => c.kind = .constant)).length ∧
    st.nHypermesh = ((cs.filter (fun c => c.kind = .hypermesh)).map (fun c => c.controls.length)).sum ∧
    st.nFull = (cs.filter (fun c => c.kind = .fullMesh)).length := by
  by_cases hc : ∀ c ∈ cs, Consistent c
  · have h1 := checkInputs_ok cs hc
    have hkind : ∀ c : CV K, (meaningful c).kind = c.kind := fun _ => rfl
    have hsh : ∀ c : CV K, (meaningful c).sHypermesh = c.sHypermesh := fun _ => rfl
    have h2 := statsLoop_ok (cs.map meaningful) (by
      intro c hm
      obtain ⟨d, hd, rfl⟩ := List.mem_map.1 hm
      cases hc d hd with
      | dontOptimize k | constant k | hypermesh k | fullMesh k => simp [meaningful, k]) ⟨0, 0, 0⟩
    simp only [check, h1, computeStatistics, h2, Res.map_ok, Bool.false_eq_true, if_false,
      Res.ok.injEq, Prod.mk.injEq] at h
    obtain ⟨_, rfl⟩ := h
    refine ⟨?_, ?_, ?_⟩
    · simp only [Nat.zero_add, List.countP_map, Function.comp_def, hkind]
      rw [List.countP_eq_length_filter]
    · simp only [Nat.zero_add, List.filter_map, List.map_map, Function.comp_def, hkind, hsh]
      congr 1
      apply List.map_congr_left
      intro c hm
      have hm' := List.mem_filter.1 hm
      cases hc c hm'.1 with
      | hypermesh k h1 => exact h1
      | dontOptimize k | constant k | fullMesh k => simp [k] at hm'
    · simp only [Nat.zero_add, List.countP_map, Function.comp_def, hkind]
      rw [List.countP_eq_length_filter]
  · rw [(C19_validation_accepts_iff cs).2 hc] at h; simp at h

/-- C22: clearing keeps the kind, the hypermesh and every size (hence the statistics), and sets
all values to zero. -/
theorem C22_clear_keeps_structure [Zero K] (cs : List (CV K)) :
    computeStatistics (clear cs) = computeStatistics cs ∧
    (clear cs).map (fun c => (c.kind, c.sHypermesh, c.controls.length, c.dcontrolsDt.length, c.dissipation)) =
      cs.map (fun c => (c.kind, c.sHypermesh, c.controls.length, c.dcontrolsDt.length, c.dissipation)) ∧
    ∀ c ∈ clear cs, (∀ v ∈ c.controls, v = 0) ∧ ∀ v ∈ c.dcontrolsDt, v = 0 := by
  refine ⟨?_, ?_, ?_⟩
  · unfold computeStatistics
    generalize (⟨0, 0, 0⟩ : Stats) = st
    induction cs generalizing st with
    | nil => rfl
    | cons c cs ih =>
      have e : clear (c :: cs) = clearOne c :: clear cs := rfl
      rw [e, statsLoop, statsLoop]
      have hk : (clearOne c).kind = c.kind := rfl
      have hs : (clearOne c).sHypermesh = c.sHypermesh := rfl
      rw [hk, hs]
      cases c.kind <;> simp only [ih]
  · simp [clear, clearOne, Function.comp_def]
  · intro c hc
    obtain ⟨d, _, rfl⟩ := List.mem_map.1 hc
    constructor <;> intro v hv <;> simp [clearOne] at hv <;> simp [hv]

example : check mix = .ok (mix.map meaningful, ⟨1, 3, 1⟩) := by decide +kernel

example : (3 : Nat) = ((mix.filter (fun c => c.kind = .hypermesh)).map (fun c => c.controls.length)).sum :=
  (C22_statistics mix (mix.map meaningful) ⟨1, 3, 1⟩ (by decide +kernel)).2.1

example : computeStatistics (clear mix) = computeStatistics mix := (C22_clear_keeps_structure mix).1

end Verif.Control
