import Verif.Spec.Parameter
import Verif.Lemmas.Search
import Mathlib.Tactic.Linarith
import Mathlib.Tactic.FieldSimp
import Mathlib.Tactic.Ring

set_option autoImplicit false

namespace Verif.Parameter

variable {K : Type*}

theorem markUsed_ok_iff (mesh : List (K × Nat)) : ∀ (used used' : List Bool),
    markUsed mesh used = .ok used' ↔
      (∀ c ∈ mesh, c.2 < used.length) ∧ used'.length = used.length ∧
      ∀ i, i < used.length → (used'[i]? = some true ↔ used[i]? = some true ∨ ∃ c ∈ mesh, c.2 = i) := by
  induction mesh with
  | nil =>
    intro used used'
    simp only [markUsed, Res.ok.injEq]
    constructor
    · rintro rfl; simp
    · rintro ⟨-, hl, h⟩
      apply List.ext_getElem hl.symm
      intro i h1 h2
      have := h i h1
      simp only [h1, h2, List.getElem?_eq_getElem, Option.some.injEq, List.not_mem_nil, false_and,
        exists_false, or_false] at this
      cases hb : used[i] <;> cases hb' : used'[i] <;> simp_all
  | cons c mesh ih =>
    intro used used'
    obtain ⟨s, i⟩ := c
    simp only [markUsed]
    by_cases hi : i ≥ used.length
    · simp only [hi, if_true]
      constructor
      · simp
      · rintro ⟨h, -⟩
        have := h (s, i) (by simp)
        simp at this; omega
    · simp only [hi, if_false]
      rw [ih]
      simp only [List.length_set, List.mem_cons, forall_eq_or_imp, exists_eq_or_imp]
      constructor
      · rintro ⟨h1, h2, h3⟩
        refine ⟨⟨by omega, h1⟩, h2, ?_⟩
        intro k hk
        rw [h3 k hk, List.getElem?_set]
        by_cases hik : i = k
        · subst hik; simp [hk]
        · simp [hik]
      · rintro ⟨⟨_, h1⟩, h2, h3⟩
        refine ⟨h1, h2, ?_⟩
        intro k hk
        rw [h3 k hk, List.getElem?_set]
        by_cases hik : i = k
        · subst hik; simp [hk]
        · simp [hik]

theorem markUsed_ne_ub (mesh : List (K × Nat)) : ∀ used, markUsed mesh used ≠ .ub := by
  induction mesh with
  | nil => intro used; simp [markUsed]
  | cons c mesh ih =>
    intro used
    obtain ⟨s, i⟩ := c
    simp only [markUsed]
    split
    · simp
    · exact ih _

section order
variable [LinearOrder K]

theorem sorted_check_iff (mesh : List (K × Nat)) :
    isSorted (fun lhs rhs => decide (lhs.1 ≤ rhs.1)) mesh = true ↔
      mesh.Pairwise (fun a b => a.1 < b.1) := by
  rw [isSorted_iff]
  · simp
  · intro a b c h1 h2
    simp only [decide_eq_false_iff_not, not_le] at *
    exact lt_trans h1 h2

theorem mkVarying_ok_iff (path : String) (aliases : List String) (values : List K)
    (mesh : List (K × Nat)) (p : Param K) :
    mkVarying path aliases values mesh = .ok p ↔
      Acceptable aliases values mesh ∧ p = ⟨path, aliases, values, mesh⟩ := by
  unfold mkVarying
  by_cases h1 : values.length < 2
  · simp only [h1, if_true]
    constructor
    · simp
    · rintro ⟨h, -⟩; have := h.two; omega
  simp only [h1, if_false]
  by_cases h2 : aliases.length = values.length
  swap
  · simp only [ne_eq, h2, not_false_eq_true, if_true]
    constructor
    · simp
    · rintro ⟨h, -⟩; exact absurd h.one_alias_each h2
  simp only [ne_eq, h2, not_true_eq_false, if_false]
  by_cases h3 : isSorted (fun lhs rhs : K × Nat => decide (lhs.1 ≤ rhs.1)) mesh = true
  swap
  · simp only [h3, Bool.not_false, if_true]
    constructor
    · simp
    · rintro ⟨h, -⟩; exact absurd ((sorted_check_iff mesh).2 h.increasing) h3
  simp only [h3, Bool.not_true, Bool.false_eq_true, if_false]
  rw [Res.bind_eq_ok]
  constructor
  · rintro ⟨used, hu, hc⟩
    obtain ⟨ha, hb, hd⟩ := (markUsed_ok_iff _ _ _).1 hu
    simp only [List.length_replicate] at ha hb hd
    split at hc
    · simp at hc
    · rename_i hcount
      refine ⟨⟨by omega, h2, (sorted_check_iff mesh).1 h3, ha, ?_⟩, by simpa using hc.symm⟩
      intro i hi
      have hnf : false ∉ used := by
        intro hf
        exact hcount (List.count_pos_iff.2 hf)
      have hlt : i < used.length := by omega
      have htrue : used[i]? = some true := by
        rw [List.getElem?_eq_getElem hlt]
        cases hb' : used[i]
        · exact absurd (hb' ▸ List.getElem_mem hlt) hnf
        · rfl
      rcases (hd i hi).1 htrue with h | h
      · simp [hi] at h
      · exact h
  · rintro ⟨h, rfl⟩
    obtain ⟨used, hu⟩ : ∃ used, markUsed mesh (List.replicate values.length false) = .ok used := by
      cases hm : markUsed mesh (List.replicate values.length false) with
      | ok u => exact ⟨u, rfl⟩
      | ub => exact absurd hm (markUsed_ne_ub _ _)
      | throw =>
        exfalso
        -- throwing means an index is out of range
        have key : ∀ (mesh : List (K × Nat)) (used : List Bool),
            (∀ c ∈ mesh, c.2 < used.length) → markUsed mesh used ≠ .throw := by
          intro mesh
          induction mesh with
          | nil => intro used _; simp [markUsed]
          | cons c mesh ih =>
            intro used hh
            obtain ⟨s, i⟩ := c
            have hi := hh (s, i) (by simp)
            simp only at hi
            simp only [markUsed, show ¬ i ≥ used.length by omega, if_false]
            exact ih _ (fun c hc => by
              rw [List.length_set]; exact hh c (List.mem_cons_of_mem _ hc))
        exact key _ _ (by simpa using h.refers) hm
    refine ⟨used, hu, ?_⟩
    obtain ⟨ha, hb, hd⟩ := (markUsed_ok_iff _ _ _).1 hu
    simp only [List.length_replicate] at ha hb hd
    have : used.count false = 0 := by
      rw [List.count_eq_zero]
      intro hf
      obtain ⟨i, hi, hif⟩ := List.getElem_of_mem hf
      have hlt : i < values.length := by omega
      have := (hd i hlt).2 (Or.inr (h.used i hlt))
      rw [List.getElem?_eq_getElem hi, hif] at this
      simp at this
    simp [this]

theorem mkVarying_ne_ub (path : String) (aliases : List String) (values : List K)
    (mesh : List (K × Nat)) : mkVarying path aliases values mesh ≠ .ub := by
  unfold mkVarying
  split; · simp
  split; · simp
  split; · simp
  cases h : markUsed mesh (List.replicate values.length false) with
  | ok u => simp only [Res.bind_ok]; split <;> simp
  | throw => simp
  | ub => exact absurd h (markUsed_ne_ub _ _)

theorem Acceptable.mesh_two {aliases : List String} {values : List K} {mesh : List (K × Nat)}
    (h : Acceptable aliases values mesh) : 2 ≤ mesh.length := by
  have h2 := h.two
  obtain ⟨c0, m0, e0⟩ := h.used 0 (by omega)
  obtain ⟨c1, m1, e1⟩ := h.used 1 (by omega)
  match mesh, m0, m1 with
  | [c], m0, m1 =>
    simp only [List.mem_singleton] at m0 m1
    subst m0; subst m1; omega
  | _ :: _ :: _, _, _ => simp

theorem increasing_above {mesh : List (K × Nat)} (h : mesh.Pairwise (fun a b => a.1 < b.1)) (s : K) :
    mesh.Pairwise (fun a b => decide (s < a.1) = true → decide (s < b.1) = true) := by
  refine h.imp ?_
  intro a b hab
  simp only [decide_eq_true_eq]
  exact fun hs => lt_trans hs hab

end order

section field
variable [Field K] [LinearOrder K]

/-- Evaluation strictly inside: the search finds the interval. -/
theorem eval_interval {p : Param K} (h : Acceptable p.aliases p.values p.mesh) {i : Nat}
    {a b : K × Nat} {va vb s : K}
    (ha : p.mesh[i]? = some a) (hb : p.mesh[i+1]? = some b)
    (hva : p.values[a.2]? = some va) (hvb : p.values[b.2]? = some vb)
    (h1 : a.1 ≤ s) (h2 : s < b.1) :
    eval p s = .ok (va + (s - a.1) / (b.1 - a.1) * (vb - va)) := by
  have hlen := h.two
  obtain ⟨hi1, hb'⟩ := List.getElem?_eq_some_iff.1 hb
  obtain ⟨hi0, ha'⟩ := List.getElem?_eq_some_iff.1 ha
  have hub : upperBound p.mesh (fun c => decide (s < c.1)) = i + 1 := by
    apply upperBound_eq (increasing_above h.increasing s) (by omega)
    · intro k hk hki
      simp only [decide_eq_false_iff_not, not_lt]
      rcases Nat.lt_or_ge k i with hlt | hge
      · have := List.pairwise_iff_getElem.1 h.increasing k i hk hi0 hlt
        rw [ha'] at this
        exact le_trans (le_of_lt this) h1
      · have : k = i := by omega
        subst this; rw [ha']; exact h1
    · intro k hk hki
      simp only [decide_eq_true_eq]
      rcases Nat.lt_or_ge (i+1) k with hlt | hge
      · have := List.pairwise_iff_getElem.1 h.increasing (i+1) k hi1 hk hlt
        rw [hb'] at this
        exact lt_trans h2 this
      · have : k = i + 1 := by omega
        subst this; rw [hb']; exact h2
  unfold eval
  simp only [show p.values.length ≠ 1 by omega, if_false, hub, Nat.add_one_ne_zero,
    show i + 1 ≠ p.mesh.length by omega, Nat.add_sub_cancel]
  simp [idx, ha, hb, hva, hvb]

theorem eval_before {p : Param K} (h : Acceptable p.aliases p.values p.mesh) {a : K × Nat} {v s : K}
    (ha : p.mesh[0]? = some a) (hv : p.values[0]? = some v) (hs : s < a.1) :
    eval p s = .ok v := by
  have hlen := h.two
  obtain ⟨hi0, ha'⟩ := List.getElem?_eq_some_iff.1 ha
  have hub : upperBound p.mesh (fun c => decide (s < c.1)) = 0 := by
    apply upperBound_eq (increasing_above h.increasing s) (by omega)
    · intro k hk hki; omega
    · intro k hk hki
      simp only [decide_eq_true_eq]
      rcases Nat.eq_zero_or_pos k with rfl | hpos
      · rw [ha']; exact hs
      · have := List.pairwise_iff_getElem.1 h.increasing 0 k hi0 hk hpos
        rw [ha'] at this
        exact lt_trans hs this
  unfold eval
  simp only [show p.values.length ≠ 1 by omega, if_false, hub, if_true, front]
  simp [hv]

theorem eval_after {p : Param K} (h : Acceptable p.aliases p.values p.mesh) {a : K × Nat} {v s : K}
    (ha : p.mesh[p.mesh.length - 1]? = some a) (hv : p.values[p.values.length - 1]? = some v)
    (hs : a.1 ≤ s) : eval p s = .ok v := by
  have hlen := h.two
  have hm := h.mesh_two
  obtain ⟨hi0, ha'⟩ := List.getElem?_eq_some_iff.1 ha
  have hub : upperBound p.mesh (fun c => decide (s < c.1)) = p.mesh.length := by
    apply upperBound_eq (increasing_above h.increasing s) (by omega)
    · intro k hk hki
      simp only [decide_eq_false_iff_not, not_lt]
      rcases Nat.lt_or_ge k (p.mesh.length - 1) with hlt | hge
      · have := List.pairwise_iff_getElem.1 h.increasing k _ hk hi0 hlt
        rw [ha'] at this
        exact le_trans (le_of_lt this) hs
      · have : k = p.mesh.length - 1 := by omega
        subst this; rw [ha']; exact hs
    · intro k hk hki; omega
  unfold eval
  simp only [show p.values.length ≠ 1 by omega, if_false, hub, show p.mesh.length ≠ 0 by omega,
    if_true, back, show p.values.length ≠ 0 by omega]
  simp [hv]

end field

/-! flat vectors -/

theorem numberOfParameters_eq (ps : List (Param K)) :
    numberOfParameters ps = (ps.map (·.values.length)).sum := by
  unfold numberOfParameters
  suffices h : ∀ (ps : List (Param K)) (n : Nat),
      ps.foldl (fun acc p => acc + p.values.length) n = n + (ps.map (·.values.length)).sum by
    simpa using h ps 0
  intro ps
  induction ps with
  | nil => simp
  | cons p ps ih => intro n; simp [ih]; omega

theorem gatherLoop_ok {α : Type*} (field : Param K → List α) (ps : List (Param K)) :
    (∀ p ∈ ps, (field p).length = p.values.length) →
    ∀ (pre rest : List α), rest.length = (ps.map (·.values.length)).sum →
    gatherLoop field ps (pre ++ rest) pre.length = .ok (pre ++ (ps.map field).flatten) := by
  induction ps with
  | nil =>
    intro _ pre rest h
    have : rest = [] := by simpa using h
    simp [gatherLoop, this]
  | cons p ps ih =>
    intro hp pre rest h
    have hl := hp p (by simp)
    simp only [List.map_cons, List.sum_cons] at h
    simp only [gatherLoop, copyInto]
    rw [if_pos (by simp; omega)]
    simp only [Res.bind_ok, List.take_left']
    have e2 : (pre ++ rest).drop (pre.length + (field p).length) = rest.drop p.values.length := by
      rw [List.drop_append]; simp [hl]
    rw [e2, show pre.length + p.values.length = (pre ++ field p).length by simp [hl]]
    rw [ih (fun q hq => hp q (List.mem_cons_of_mem _ hq)) (pre ++ field p) _ (by simp; omega)]
    simp

theorem setLoop_ok (ps : List (Param K)) : ∀ (input : List K),
    input.length = (ps.map (·.values.length)).sum →
    ∃ ps', setLoop ps input = .ok ps' ∧ (ps'.map (·.values)).flatten = input ∧
      ps'.map (fun q => (q.path, q.aliases, q.mesh, q.values.length)) =
        ps.map (fun q => (q.path, q.aliases, q.mesh, q.values.length)) := by
  induction ps with
  | nil =>
    intro input h
    have : input = [] := by simpa using h
    exact ⟨[], by simp [setLoop], by simp [this], rfl⟩
  | cons p ps ih =>
    intro input h
    simp only [List.map_cons, List.sum_cons] at h
    obtain ⟨ps', h1, h2, h3⟩ := ih (input.drop p.values.length) (by simp; omega)
    refine ⟨{ p with values := input.take p.values.length } :: ps', ?_, ?_, ?_⟩
    · simp only [setLoop, show ¬ input.length < p.values.length by omega, if_false, h1, Res.bind_ok]
    · simp [h2]
    · simp only [List.map_cons, h3]
      congr 1
      simp; omega

theorem setLoop_flatten (ps : List (Param K)) :
    setLoop ps (ps.map (·.values)).flatten = .ok ps := by
  induction ps with
  | nil => simp [setLoop]
  | cons p ps ih => simp [setLoop, ih]

end Verif.Parameter
