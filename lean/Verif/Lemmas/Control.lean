import Verif.Spec.Control
import Verif.Lemmas.Search
import Mathlib.Tactic.Linarith

set_option autoImplicit false

namespace Verif.Control

variable {K : Type*}

section
variable [Zero K] [LinearOrder K]

theorem checkOne_ok_iff (c c' : CV K) :
    checkOne c = .ok c' ↔ Consistent c ∧ c' = meaningful c := by
  unfold checkOne
  constructor
  · intro h
    cases hk : c.kind with
    | dontOptimize =>
      simp only [hk] at h
      split at h; · simp at h
      split at h; · simp at h
      split at h; · simp at h
      rename_i h1 h2 h3
      simp only [Res.ok.injEq] at h
      refine ⟨.dontOptimize hk ?_ ?_ ?_, ?_⟩
      · exact List.length_eq_zero_iff.1 (by omega)
      · exact List.length_eq_zero_iff.1 (by omega)
      · exact List.length_eq_zero_iff.1 (by omega)
      · simp [meaningful, hk, ← h]
    | constant =>
      simp only [hk] at h
      split at h; · simp at h
      split at h; · simp at h
      split at h; · simp at h
      rename_i h1 h2 h3
      simp only [Res.ok.injEq] at h
      refine ⟨.constant hk ?_ (by omega) ?_, ?_⟩
      · exact List.length_eq_zero_iff.1 (by omega)
      · exact List.length_eq_zero_iff.1 (by omega)
      · simp [meaningful, hk, ← h]
    | hypermesh =>
      simp only [hk] at h
      split at h; · simp at h
      split at h; · simp at h
      rename_i h1 h3
      simp only [Res.ok.injEq] at h
      refine ⟨.hypermesh hk (by omega) ?_, ?_⟩
      · exact List.length_eq_zero_iff.1 (by omega)
      · simp [meaningful, hk, ← h]
    | fullMesh =>
      simp only [hk] at h
      split at h; · simp at h
      split at h; · simp at h
      split at h; · simp at h
      rename_i h1 h2 h3
      simp only [Res.ok.injEq] at h
      refine ⟨.fullMesh hk ?_ ?_ (not_lt.1 h3), ?_⟩
      · exact List.length_eq_zero_iff.1 (by omega)
      · by_cases h0 : c.dcontrolsDt.length = 0
        · exact Or.inl (List.length_eq_zero_iff.1 h0)
        · right; omega
      · rw [← h]; cases c; simp_all [meaningful]
    | unknown => simp [hk] at h
  · rintro ⟨hc, rfl⟩
    cases hc with
    | dontOptimize k h1 h2 h3 => simp [k, h1, h2, h3, meaningful]
    | constant k h1 h2 h3 => simp [k, h1, h2, h3, meaningful]
    | hypermesh k h1 h3 => simp [k, h1, h3, meaningful]
    | fullMesh k h1 h2 h3 =>
      have h2' : ¬ (c.controls.length ≠ c.dcontrolsDt.length ∧ c.dcontrolsDt.length ≠ 0) := by
        rcases h2 with h2 | h2
        · simp [h2]
        · omega
      have hm : meaningful c = c := by cases c; simp_all [meaningful]
      rw [hm]
      simp only [k, h1, List.length_nil, gt_iff_lt, Nat.lt_irrefl, if_false, h2', not_lt.2 h3]

theorem checkOne_ne_ub (c : CV K) : checkOne c ≠ .ub := by
  unfold checkOne
  cases c.kind <;> simp only <;> (repeat' split) <;> simp

theorem checkInputs_ok (cs : List (CV K)) (h : ∀ c ∈ cs, Consistent c) :
    checkInputs cs = (cs.map meaningful, false) := by
  induction cs with
  | nil => rfl
  | cons c cs ih =>
    have h1 := (checkOne_ok_iff c _).2 ⟨h c (by simp), rfl⟩
    simp [checkInputs, h1, ih (fun d hd => h d (List.mem_cons_of_mem _ hd))]

/-- On failure: there is a first inconsistent control, what precedes it has been reset. -/
theorem checkInputs_throw (cs : List (CV K)) (h : ¬ ∀ c ∈ cs, Consistent c) :
    ∃ pre c post, cs = pre ++ c :: post ∧ (∀ d ∈ pre, Consistent d) ∧ ¬ Consistent c ∧
      checkInputs cs = (pre.map meaningful ++ c :: post, true) := by
  induction cs with
  | nil => simp at h
  | cons c cs ih =>
    by_cases hc : Consistent c
    · have hcs : ¬ ∀ d ∈ cs, Consistent d := by
        intro hd; apply h; intro d hmem
        rcases List.mem_cons.1 hmem with rfl | hm
        · exact hc
        · exact hd d hm
      obtain ⟨pre, d, post, e, hpre, hd, hres⟩ := ih hcs
      refine ⟨c :: pre, d, post, by rw [e]; rfl, ?_, hd, ?_⟩
      · intro x hx
        rcases List.mem_cons.1 hx with rfl | hx
        · exact hc
        · exact hpre x hx
      · have h1 := (checkOne_ok_iff c _).2 ⟨hc, rfl⟩
        simp [checkInputs, h1, hres]
    · refine ⟨[], c, cs, rfl, by simp, hc, ?_⟩
      simp only [checkInputs, List.map_nil, List.nil_append]
      cases h1 : checkOne c with
      | ok c' => exact absurd ((checkOne_ok_iff c c').1 h1).1 hc
      | throw => rfl
      | ub => rfl

theorem Consistent.meaningful {c : CV K} (h : Consistent c) : Consistent (meaningful c) := by
  cases h with
  | dontOptimize k h1 h2 h3 => exact .dontOptimize k h1 h2 h3
  | constant k h1 h2 h3 => exact .constant k h1 h2 h3
  | hypermesh k h1 h3 => exact .hypermesh k h1 h3
  | fullMesh k h1 h2 h3 => exact .fullMesh k h1 h2 (by simpa [Control.meaningful, k] using h3)

omit [LinearOrder K] in
theorem meaningful_idem (c : CV K) : meaningful (meaningful c) = meaningful c := by
  unfold meaningful
  by_cases h : c.kind = .fullMesh <;> simp [h]

end

theorem statsLoop_ok (cs : List (CV K)) (h : ∀ c ∈ cs, c.kind ≠ .unknown) : ∀ st : Stats,
    statsLoop cs st = .ok ⟨st.nConstant + cs.countP (fun c => c.kind = .constant),
      st.nHypermesh + ((cs.filter (fun c => c.kind = .hypermesh)).map (fun c => c.sHypermesh.length)).sum,
      st.nFull + cs.countP (fun c => c.kind = .fullMesh)⟩ := by
  induction cs with
  | nil => intro st; simp [statsLoop]
  | cons c cs ih =>
    intro st
    have ih' := ih (fun d hd => h d (List.mem_cons_of_mem _ hd))
    have hc := h c (by simp)
    unfold statsLoop
    cases hk : c.kind with
    | dontOptimize => simp [ih', hk]
    | constant => simp [ih', hk]; omega
    | hypermesh => simp [ih', hk]; omega
    | fullMesh => simp [ih', hk]; omega
    | unknown => exact absurd hk hc

theorem statsLoop_unknown (cs : List (CV K)) (h : ∃ c ∈ cs, c.kind = .unknown) : ∀ st : Stats,
    statsLoop cs st = .throw := by
  induction cs with
  | nil => simp at h
  | cons c cs ih =>
    intro st
    unfold statsLoop
    cases hk : c.kind with
    | unknown => rfl
    | _ =>
      obtain ⟨d, hd, hdk⟩ := h
      rcases List.mem_cons.1 hd with rfl | hd
      · simp [hk] at hdk
      · exact ih ⟨d, hd, hdk⟩ _

section
variable [LinearOrder K]

theorem increasing_above {mesh : List K} (h : mesh.Pairwise (· < ·)) (s : K) :
    mesh.Pairwise (fun a b => decide (s < a) = true → decide (s < b) = true) := by
  refine h.imp ?_
  intro a b hab
  simp only [decide_eq_true_eq]
  exact fun hs => lt_trans hs hab

theorem hypermeshPosition_ok {mesh : List K} (h : mesh.Pairwise (· < ·)) {s : K} {i : Nat} {x : K}
    (hi : mesh[i]? = some x) (hx : x ≤ s) (hnext : ∀ j y, i < j → mesh[j]? = some y → s < y) :
    hypermeshPosition mesh s = .ok i := by
  obtain ⟨hlt, hxe⟩ := List.getElem?_eq_some_iff.1 hi
  have hub : upperBound mesh (fun y => decide (s < y)) = i + 1 := by
    apply upperBound_eq (increasing_above h s) (by omega)
    · intro k hk hki
      simp only [decide_eq_false_iff_not, not_lt]
      rcases Nat.lt_or_ge k i with hl | hg
      · have := List.pairwise_iff_getElem.1 h k i hk hlt hl
        rw [hxe] at this
        exact le_trans (le_of_lt this) hx
      · have : k = i := by omega
        subst this; rw [hxe]; exact hx
    · intro k hk hki
      simp only [decide_eq_true_eq]
      exact hnext k mesh[k] (by omega) (List.getElem?_eq_getElem hk)
  simp [hypermeshPosition, hub]

theorem hypermeshPosition_throw {mesh : List K} (h : mesh.Pairwise (· < ·)) {s x : K}
    (h0 : mesh[0]? = some x) (hs : s < x) : hypermeshPosition mesh s = .throw := by
  obtain ⟨hlt, hxe⟩ := List.getElem?_eq_some_iff.1 h0
  have hub : upperBound mesh (fun y => decide (s < y)) = 0 := by
    apply upperBound_eq (increasing_above h s) (by omega)
    · intro k hk hki; omega
    · intro k hk hki
      simp only [decide_eq_true_eq]
      rcases Nat.eq_zero_or_pos k with rfl | hpos
      · rw [hxe]; exact hs
      · have := List.pairwise_iff_getElem.1 h 0 k hlt hk hpos
        rw [hxe] at this
        exact lt_trans hs this
  simp [hypermeshPosition, hub, idx, h0]

/-- On an increasing mesh starting at or before `s` there is a last checkpoint not after `s`. -/
theorem exists_last_checkpoint {mesh : List K} (h : mesh.Pairwise (· < ·)) {s x0 : K}
    (h0 : mesh[0]? = some x0) (hs : x0 ≤ s) :
    ∃ (i : Nat) (x : K), mesh[i]? = some x ∧ x ≤ s ∧ ∀ (j : Nat) (y : K), i < j →
      mesh[j]? = some y → s < y := by
  obtain ⟨a, b, c⟩ := upperBound_spec (increasing_above h s)
  obtain ⟨hlt, hxe⟩ := List.getElem?_eq_some_iff.1 h0
  have hpos : upperBound mesh (fun y => decide (s < y)) ≠ 0 := by
    intro h0'
    have := c 0 hlt (by omega)
    simp only [decide_eq_true_eq, hxe] at this
    exact absurd hs (not_le.2 this)
  have hlt' : upperBound mesh (fun y => decide (s < y)) - 1 < mesh.length := by omega
  refine ⟨_, mesh[upperBound mesh (fun y => decide (s < y)) - 1], List.getElem?_eq_getElem hlt', ?_, ?_⟩
  · have := b _ hlt' (by omega)
    simpa using this
  · intro j y hj hjy
    obtain ⟨hjl, rfl⟩ := List.getElem?_eq_some_iff.1 hjy
    have := c j hjl (by omega)
    simpa using this

end

end Verif.Control
