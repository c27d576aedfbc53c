import Verif.Spec.Transcription
import Verif.Lemmas.ResList
import Verif.Lemmas.Control
import Mathlib.Tactic.Linarith
import Mathlib.Tactic.Ring

/-! Lemmas about packing and loading the optimisation vector. -/

set_option autoImplicit false

namespace Verif.Transcription

open Verif.Control

variable {K : Type*}

/-! ### Counting -/

@[simp] theorem nFullMesh_nil : nFullMesh ([] : List (CV K)) = 0 := rfl

theorem nFullMesh_cons (c : CV K) (cs : List (CV K)) :
    nFullMesh (c :: cs) = (if c.kind = .fullMesh then 1 else 0) + nFullMesh cs := by
  unfold nFullMesh
  rw [List.countP_cons]
  by_cases h : c.kind = .fullMesh <;> simp [h, Nat.add_comm]

@[simp] theorem nOther_nil : nOther ([] : List (CV K)) = 0 := rfl

theorem nOther_cons (c : CV K) (cs : List (CV K)) :
    nOther (c :: cs) = (if c.kind = .constant ∨ c.kind = .hypermesh then c.controls.length else 0) + nOther cs := by
  unfold nOther
  rw [List.filter_cons]
  by_cases h : c.kind = .constant ∨ c.kind = .hypermesh <;> simp [h]

theorem nFullMesh_take_lt (cs : List (CV K)) (c : Nat) (cv : CV K) (h : cs[c]? = some cv)
    (hk : cv.kind = .fullMesh) : nFullMesh (cs.take c) < nFullMesh cs := by
  induction cs generalizing c with
  | nil => simp at h
  | cons d cs ih =>
    cases c with
    | zero =>
      simp only [List.getElem?_cons_zero, Option.some.injEq] at h
      subst h
      simp [nFullMesh_cons, hk]
    | succ c =>
      have := ih c (by simpa using h)
      simp only [List.take_succ_cons, nFullMesh_cons]
      omega

theorem nOther_take_lt (cs : List (CV K)) (c : Nat) (cv : CV K) (h : cs[c]? = some cv)
    (hk : cv.kind = .constant ∨ cv.kind = .hypermesh) :
    nOther (cs.take c) + cv.controls.length ≤ nOther cs := by
  induction cs generalizing c with
  | nil => simp at h
  | cons d cs ih =>
    cases c with
    | zero =>
      simp only [List.getElem?_cons_zero, Option.some.injEq] at h
      subst h
      simp [nOther_cons, hk]
    | succ c =>
      have := ih c (by simpa using h)
      simp only [List.take_succ_cons, nOther_cons]
      omega

theorem nFullMesh_congr (cs cs' : List (CV K)) (hl : cs.length = cs'.length)
    (h : ∀ (c : Nat) (a b : CV K), cs[c]? = some a → cs'[c]? = some b → b.kind = a.kind) :
    nFullMesh cs' = nFullMesh cs := by
  induction cs generalizing cs' with
  | nil => match cs', hl with | [], _ => rfl
  | cons a cs ih =>
    match cs', hl with
    | b :: cs', hl =>
      have h0 := h 0 a b rfl rfl
      rw [nFullMesh_cons, nFullMesh_cons, h0, ih cs' (by simpa using hl)
        (fun c x y hx hy => h (c + 1) x y (by simpa using hx) (by simpa using hy))]

theorem nOther_congr (cs cs' : List (CV K)) (hl : cs.length = cs'.length)
    (h : ∀ (c : Nat) (a b : CV K), cs[c]? = some a → cs'[c]? = some b →
      b.kind = a.kind ∧ b.controls.length = a.controls.length) :
    nOther cs' = nOther cs := by
  induction cs generalizing cs' with
  | nil => match cs', hl with | [], _ => rfl
  | cons a cs ih =>
    match cs', hl with
    | b :: cs', hl =>
      obtain ⟨h0, h1⟩ := h 0 a b rfl rfl
      rw [nOther_cons, nOther_cons, h0, h1, ih cs' (by simpa using hl)
        (fun c x y hx hy => h (c + 1) x y (by simpa using hx) (by simpa using hy))]

/-! ### Packing -/

theorem inputEntries_length (o : Options K) (row : Row K) (js : List Nat) :
    (inputEntries o row js).length = js.length := by simp [inputEntries]

theorem packInputs_length [Neg K] (v : Vehicle K) (hv : v.iTime + 1 < v.nInputs) (o : Options K) (si : K)
    (row : Row K) : (packInputs v o si row).length = v.nInputs - 1 := by
  simp [packInputs, inputEntries_length]; omega

/-- Bounds of input `j` at arclength `si`. -/
def inputLb [Neg K] (v : Vehicle K) (o : Options K) (si : K) (j : Nat) : K :=
  if j = v.iTime + 1 then -(v.leftLimit si) else o.inputsLb j

def inputUb (v : Vehicle K) (o : Options K) (si : K) (j : Nat) : K :=
  if j = v.iTime + 1 then v.rightLimit si else o.inputsUb j

theorem packInputs_get [Neg K] (v : Vehicle K) (o : Options K) (si : K) (row : Row K) (j : Nat)
    (hj : j < v.nInputs) (ht : j ≠ v.iTime) :
    (packInputs v o si row)[inputSlot v j]? =
      some ⟨row j, inputLb v o si j, inputUb v o si j⟩ := by
  unfold packInputs inputSlot
  by_cases h1 : j < v.iTime
  · rw [if_pos h1, List.append_assoc, List.getElem?_append_left (by simpa [inputEntries_length] using h1)]
    simp [inputEntries, h1, inputLb, inputUb]
    omega
  · rw [if_neg h1]
    by_cases h2 : j = v.iTime + 1
    · subst h2
      rw [List.getElem?_append_left (by simp [inputEntries_length])]
      rw [List.getElem?_append_right (by simp [inputEntries_length])]
      simp [inputEntries_length, inputLb, inputUb]
    · have hj2 : v.iTime + 2 ≤ j := by omega
      rw [List.getElem?_append_right (by simp [inputEntries_length]; omega)]
      have e : j - 1 - (inputEntries o row (List.range v.iTime) ++
          [(⟨row (v.iTime + 1), -(v.leftLimit si), v.rightLimit si⟩ : Entry K)]).length = j - (v.iTime + 2) := by
        simp [inputEntries_length]; omega
      rw [e]
      have hlt : j - (v.iTime + 2) < v.nInputs - (v.iTime + 2) := by omega
      have hs : v.iTime + 2 + (j - (v.iTime + 2)) = j := by omega
      simp [inputEntries, hlt, hs, inputLb, inputUb, h2]

theorem fullEntries_ok (lb ub : Row K) (i : Nat) (cs : List (CV K)) (j : Nat)
    (h : ∀ c ∈ cs, c.kind = .fullMesh → i < c.controls.length) :
    ∃ es, fullEntries lb ub i cs j = .ok es ∧ es.length = nFullMesh cs ∧
      ∀ (c : Nat) (cv : CV K), cs[c]? = some cv → cv.kind = .fullMesh →
        ∃ a, cv.controls[i]? = some a ∧
          es[nFullMesh (cs.take c)]? = some ⟨a, lb (j + c), ub (j + c)⟩ := by
  induction cs generalizing j with
  | nil => exact ⟨[], rfl, rfl, by simp⟩
  | cons d cs ih =>
    obtain ⟨es, h1, h2, h3⟩ := ih (j + 1) (fun c hc => h c (by simp [hc]))
    by_cases hd : d.kind = .fullMesh
    · have hi := h d (by simp) hd
      refine ⟨⟨d.controls[i], lb j, ub j⟩ :: es, ?_, ?_, ?_⟩
      · simp [fullEntries, hd, idx, hi, h1]
      · simp [nFullMesh_cons, hd, h2, Nat.add_comm]
      · intro c cv hc hk
        cases c with
        | zero =>
          simp only [List.getElem?_cons_zero, Option.some.injEq] at hc
          subst hc
          exact ⟨d.controls[i], by simp [hi], by simp⟩
        | succ c =>
          obtain ⟨a, ha, hb⟩ := h3 c cv (by simpa using hc) hk
          refine ⟨a, ha, ?_⟩
          simp only [List.take_succ_cons, nFullMesh_cons, hd, if_true, Nat.add_comm 1,
            List.getElem?_cons_succ]
          rw [hb]
          have : j + 1 + c = j + (c + 1) := by omega
          rw [this]
    · refine ⟨es, by simp [fullEntries, hd, h1], by simp [nFullMesh_cons, hd, h2], ?_⟩
      intro c cv hc hk
      cases c with
      | zero =>
        simp only [List.getElem?_cons_zero, Option.some.injEq] at hc
        subst hc; exact absurd hk hd
      | succ c =>
        obtain ⟨a, ha, hb⟩ := h3 c cv (by simpa using hc) hk
        refine ⟨a, ha, ?_⟩
        simp only [List.take_succ_cons, nFullMesh_cons, hd, if_false, Nat.zero_add]
        rw [hb]
        have : j + 1 + c = j + (c + 1) := by omega
        rw [this]

theorem fullDerivativeEntries_ok (lb ub : List K) (i : Nat) (cs : List (CV K)) (j : Nat)
    (h : ∀ c ∈ cs, c.kind = .fullMesh → i < c.dcontrolsDt.length)
    (hb : ∀ (c : Nat) (cv : CV K), cs[c]? = some cv → cv.kind = .fullMesh →
      j + c < lb.length ∧ j + c < ub.length) :
    ∃ es, fullDerivativeEntries lb ub i cs j = .ok es ∧ es.length = nFullMesh cs ∧
      ∀ (c : Nat) (cv : CV K), cs[c]? = some cv → cv.kind = .fullMesh →
        ∃ a l u, cv.dcontrolsDt[i]? = some a ∧ lb[j + c]? = some l ∧ ub[j + c]? = some u ∧
          es[nFullMesh (cs.take c)]? = some ⟨a, l, u⟩ := by
  induction cs generalizing j with
  | nil => exact ⟨[], rfl, rfl, by simp⟩
  | cons d cs ih =>
    have e : ∀ c, j + 1 + c = j + (c + 1) := fun c => by omega
    obtain ⟨es, h1, h2, h3⟩ := ih (j + 1) (fun c hc => h c (by simp [hc]))
      (fun c cv hc hk => by rw [e]; exact hb (c + 1) cv (by simpa using hc) hk)
    by_cases hd : d.kind = .fullMesh
    · have hi := h d (by simp) hd
      obtain ⟨hl, hu⟩ := hb 0 d (by simp) hd
      simp only [Nat.add_zero] at hl hu
      refine ⟨⟨d.dcontrolsDt[i], lb[j], ub[j]⟩ :: es, ?_, ?_, ?_⟩
      · simp [fullDerivativeEntries, hd, idx, hi, h1, hl, hu]
      · simp [nFullMesh_cons, hd, h2, Nat.add_comm]
      · intro c cv hc hk
        cases c with
        | zero =>
          simp only [List.getElem?_cons_zero, Option.some.injEq] at hc
          subst hc
          exact ⟨d.dcontrolsDt[i], lb[j], ub[j], by simp [hi], by simp [hl], by simp [hu], by simp⟩
        | succ c =>
          obtain ⟨a, l, u, ha, h4, h5, hb⟩ := h3 c cv (by simpa using hc) hk
          rw [e] at h4 h5
          refine ⟨a, l, u, ha, h4, h5, ?_⟩
          simp only [List.take_succ_cons, nFullMesh_cons, hd, if_true, Nat.add_comm 1,
            List.getElem?_cons_succ]
          rw [hb]
    · refine ⟨es, by simp [fullDerivativeEntries, hd, h1], by simp [nFullMesh_cons, hd, h2], ?_⟩
      intro c cv hc hk
      cases c with
      | zero =>
        simp only [List.getElem?_cons_zero, Option.some.injEq] at hc
        subst hc; exact absurd hk hd
      | succ c =>
        obtain ⟨a, l, u, ha, h4, h5, hb⟩ := h3 c cv (by simpa using hc) hk
        rw [e] at h4 h5
        refine ⟨a, l, u, ha, h4, h5, ?_⟩
        simp only [List.take_succ_cons, nFullMesh_cons, hd, if_false, Nat.zero_add]
        rw [hb]

theorem fullDerivativeEntries_ne_throw (lb ub : List K) (i : Nat) (cs : List (CV K)) (j : Nat) :
    fullDerivativeEntries lb ub i cs j ≠ .throw := by
  induction cs generalizing j with
  | nil => simp [fullDerivativeEntries]
  | cons d cs ih =>
    have := ih (j + 1)
    unfold fullDerivativeEntries
    split
    · rcases h1 : idx d.dcontrolsDt i with a | _ | _ <;> simp
      · rcases h2 : idx lb j with a | _ | _ <;> simp
        · rcases h3 : idx ub j with a | _ | _ <;> simp
          · rcases h4 : fullDerivativeEntries lb ub i cs (j + 1) with a | _ | _ <;> simp_all
          · unfold idx at h3; split at h3 <;> simp at h3
        · unfold idx at h2; split at h2 <;> simp at h2
      · unfold idx at h1; split at h1 <;> simp at h1
    · exact this

theorem fullDerivativeEntries_bounded {lb ub : List K} {i : Nat} {cs : List (CV K)} {j : Nat}
    {es : List (Entry K)} (h : fullDerivativeEntries lb ub i cs j = .ok es) :
    ∀ (c : Nat) (cv : CV K), cs[c]? = some cv → cv.kind = .fullMesh →
      j + c < lb.length ∧ j + c < ub.length := by
  induction cs generalizing j es with
  | nil => simp
  | cons d cs ih =>
    intro c cv hc hk
    have lt : ∀ (l : List K) (a : K), idx l j = .ok a → j < l.length := by
      intro l a ha
      unfold idx at ha
      split at ha
      · rename_i hh; exact (List.getElem?_eq_some_iff.1 hh).1
      · simp at ha
    unfold fullDerivativeEntries at h
    split at h
    · obtain ⟨a, _, h⟩ := Res.bind_eq_ok.1 h
      obtain ⟨l, hl, h⟩ := Res.bind_eq_ok.1 h
      obtain ⟨u, hu, h⟩ := Res.bind_eq_ok.1 h
      obtain ⟨es', hes, h⟩ := Res.bind_eq_ok.1 h
      cases c with
      | zero => exact ⟨lt _ _ hl, lt _ _ hu⟩
      | succ c => have := ih hes c cv (by simpa using hc) hk; omega
    · cases c with
      | zero =>
        simp only [List.getElem?_cons_zero, Option.some.injEq] at hc
        subst hc; contradiction
      | succ c => have := ih h c cv (by simpa using hc) hk; omega

theorem restEntriesDirect_spec (lb ub : Row K) (cs : List (CV K)) (j : Nat) :
    (restEntriesDirect lb ub cs j).length = nOther cs ∧
      ∀ (c k : Nat) (cv : CV K), cs[c]? = some cv → (cv.kind = .constant ∨ cv.kind = .hypermesh) →
        k < cv.controls.length → ∃ a, cv.controls[k]? = some a ∧
          (restEntriesDirect lb ub cs j)[nOther (cs.take c) + k]? = some ⟨a, lb (j + c), ub (j + c)⟩ := by
  induction cs generalizing j with
  | nil => exact ⟨rfl, by simp⟩
  | cons d cs ih =>
    obtain ⟨h2, h3⟩ := ih (j + 1)
    have hblock : ∃ blk : List (Entry K), restEntriesDirect lb ub (d :: cs) j = blk ++ restEntriesDirect lb ub cs (j + 1) ∧
        (d.kind = .constant ∨ d.kind = .hypermesh → blk = d.controls.map fun a => ⟨a, lb j, ub j⟩) ∧
        (¬ (d.kind = .constant ∨ d.kind = .hypermesh) → blk = []) := by
      rw [restEntriesDirect]
      refine ⟨_, rfl, ?_, ?_⟩ <;> intro hk
      · rcases hk with hk | hk <;> simp [hk]
      · cases hkk : d.kind <;> simp [hkk] at hk ⊢
    obtain ⟨blk, e, hb1, hb2⟩ := hblock
    rw [e]
    by_cases hd : d.kind = .constant ∨ d.kind = .hypermesh
    · have hb := hb1 hd
      have hbl : blk.length = d.controls.length := by simp [hb]
      refine ⟨by simp [h2, hb, nOther_cons, hd], ?_⟩
      intro c k cv hc hk hkl
      cases c with
      | zero =>
        simp only [List.getElem?_cons_zero, Option.some.injEq] at hc
        subst hc
        refine ⟨d.controls[k], by simp [hkl], ?_⟩
        simp only [List.take_zero, nOther_nil, Nat.zero_add, Nat.add_zero]
        rw [List.getElem?_append_left (by omega)]
        simp [hb, hkl]
      | succ c =>
        obtain ⟨a, ha, hh⟩ := h3 c k cv (by simpa using hc) hk hkl
        refine ⟨a, ha, ?_⟩
        simp only [List.take_succ_cons, nOther_cons, hd, if_true]
        rw [List.getElem?_append_right (by omega), hbl]
        have e1 : d.controls.length + nOther (cs.take c) + k - d.controls.length = nOther (cs.take c) + k := by omega
        have e2 : j + (c + 1) = j + 1 + c := by omega
        rw [e1, hh, e2]
    · have hb := hb2 hd
      subst hb
      refine ⟨by simp [h2, nOther_cons, hd], ?_⟩
      intro c k cv hc hk hkl
      cases c with
      | zero =>
        simp only [List.getElem?_cons_zero, Option.some.injEq] at hc
        subst hc
        exact absurd hk hd
      | succ c =>
        obtain ⟨a, ha, hh⟩ := h3 c k cv (by simpa using hc) hk hkl
        refine ⟨a, ha, ?_⟩
        simp only [List.take_succ_cons, nOther_cons, hd, if_false, Nat.zero_add, List.nil_append]
        have e2 : j + (c + 1) = j + 1 + c := by omega
        rw [hh, e2]

/-- Without constant controls the derivative form writes the same as the direct one. -/
theorem restEntriesDerivative_eq (lb ub : Row K) (cs : List (CV K)) (j : Nat)
    (h : ∀ c ∈ cs, c.kind ≠ .constant) :
    restEntriesDerivative lb ub cs j = restEntriesDirect lb ub cs j := by
  induction cs generalizing j with
  | nil => rfl
  | cons d cs ih =>
    have hd := h d (by simp)
    rw [restEntriesDerivative, restEntriesDirect, ih (j + 1) (fun c hc => h c (by simp [hc]))]
    cases hk : d.kind <;> simp_all

/-- With constant controls the derivative form writes as many values more as they have. -/
theorem restEntriesDerivative_length (lb ub : Row K) (cs : List (CV K)) (j : Nat)
    (h : ∀ c ∈ cs, c.kind = .constant → c.controls.length = 1) :
    (restEntriesDerivative lb ub cs j).length =
      nOther cs + cs.countP (fun c => c.kind = .constant) := by
  induction cs generalizing j with
  | nil => rfl
  | cons d cs ih =>
    have h1 := ih (j + 1) (fun c hc => h c (by simp [hc]))
    have h2 := h d (by simp)
    rw [restEntriesDerivative, List.length_append, h1, nOther_cons, List.countP_cons]
    cases hk : d.kind <;> simp [hk] at h2 ⊢ <;> omega

end Verif.Transcription
