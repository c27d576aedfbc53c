import Verif.Lemmas.LapOptions
import Verif.Lemmas.Control
import Verif.Lemmas.ResList

/-!
# Lemmas on the command of an optimal lap
-/

set_option autoImplicit false

namespace Verif.LapOptions

open Verif.Control Verif.Transcription

variable {K : Type*}

theorem controlVariable_kind [Zero K] (c : Config K) (n : Nat) (u : K) (j : Nat) :
    (controlVariable c n u j).kind = kindOf (c.types j) := by
  unfold controlVariable kindOf
  split_ifs <;> rfl

theorem controlVariable_consistent [Zero K] [LinearOrder K] (c : Config K) (n : Nat) (u : K) (j : Nat)
    (ht : c.types j ∈ controlTypes) :
    Consistent (controlVariable c n u j) ↔ (c.types j = "full-mesh" → 0 ≤ c.dissipations j) := by
  simp only [controlTypes, List.mem_cons, List.not_mem_nil, or_false] at ht
  rcases ht with h | h | h | h
  · simp only [controlVariable, h, if_true]
    exact ⟨fun _ h => by simp at h, fun _ => .dontOptimize rfl rfl rfl rfl⟩
  · rw [show controlVariable c n u j = createConstant u by simp [controlVariable, h]]
    exact ⟨fun _ h' => by simp [h] at h', fun _ => .constant rfl rfl rfl rfl⟩
  · rw [show controlVariable c n u j = createHypermesh (c.hypermeshes j)
      (List.replicate (c.hypermeshes j).length u) by simp [controlVariable, h]]
    exact ⟨fun _ h' => by simp [h] at h', fun _ => .hypermesh rfl (by simp [createHypermesh]) rfl⟩
  · cases hd : c.isDirect
    · rw [show controlVariable c n u j = createFullMeshD (List.replicate n u) (List.replicate n 0)
        (c.dissipations j) by simp [controlVariable, h, hd]]
      constructor
      · intro hc _
        cases hc with
        | fullMesh k h1 h2 h3 => exact h3
        | _ k => simp [createFullMeshD] at k
      · intro h0
        exact .fullMesh rfl rfl (.inr (by simp [createFullMeshD])) (h0 h)
    · rw [show controlVariable c n u j = createFullMesh (List.replicate n u) (c.dissipations j) by
        simp [controlVariable, h, hd]]
      constructor
      · intro hc _
        cases hc with
        | fullMesh k h1 h2 h3 => exact h3
        | _ k => simp [createFullMesh] at k
      · intro h0
        exact .fullMesh rfl rfl (.inl rfl) (h0 h)

theorem checkControls_ok (isDirect : Bool) (n : Nat) : ∀ cs : List (CV K),
    (∀ c ∈ cs, c.kind = .fullMesh → c.controls.length = n ∧
      c.dcontrolsDt.length = if isDirect then 0 else n) → checkControls isDirect n cs = .ok () := by
  intro cs
  induction cs with
  | nil => intro _; rfl
  | cons c cs ih =>
    intro h
    have ih := ih fun c hc => h c (List.mem_cons_of_mem _ hc)
    have hc := h c List.mem_cons_self
    unfold checkControls
    by_cases hk : c.kind = .fullMesh
    · obtain ⟨h1, h2⟩ := hc hk
      cases isDirect <;> simp_all
    · simp [hk, ih]

theorem startControls_ok {u : Row K} : ∀ (cs : List (CV K)) (j : Nat) (cs' : List (CV K)),
    startControls u j cs = .ok cs' → cs'.length = cs.length ∧
      ∀ k (h : k < cs.length) (h' : k < cs'.length), startControl (u (j + k)) cs[k] = .ok cs'[k] := by
  intro cs
  induction cs with
  | nil =>
    intro j cs' h
    obtain rfl := Res.ok.inj h
    exact ⟨rfl, fun k h => by simp at h⟩
  | cons c cs ih =>
    intro j cs' h
    obtain ⟨c1, h1, h⟩ := Res.bind_eq_ok.1 h
    obtain ⟨cs1, h2, h⟩ := Res.bind_eq_ok.1 h
    obtain rfl := Res.ok.inj h
    obtain ⟨h3, h4⟩ := ih _ _ h2
    refine ⟨by simp [h3], fun k h h' => ?_⟩
    rcases k with _ | k
    · exact h1
    · have := h4 k (by simpa using h) (by simpa using h')
      rw [show j + (k + 1) = j + 1 + k by omega]
      exact this

theorem startControls_exists {u : Row K} : ∀ (cs : List (CV K)) (j : Nat),
    (∀ c ∈ cs, c.kind = .fullMesh → c.controls ≠ []) → ∃ cs', startControls u j cs = .ok cs' := by
  intro cs
  induction cs with
  | nil => intro j _; exact ⟨[], rfl⟩
  | cons c cs ih =>
    intro j h
    obtain ⟨cs', h1⟩ := ih (j + 1) fun c hc => h c (List.mem_cons_of_mem _ hc)
    obtain ⟨c', h2⟩ : ∃ c', startControl (u j) c = .ok c' := by
      unfold startControl
      by_cases hk : c.kind = .fullMesh
      · rw [if_pos hk]
        have := h c List.mem_cons_self hk
        rcases hc : c.controls with _ | ⟨a, l⟩
        · exact absurd hc this
        · exact ⟨_, rfl⟩
      · exact ⟨c, by rw [if_neg hk]⟩
    exact ⟨c' :: cs', by simp only [startControls, h2, h1, Res.bind_ok]⟩

theorem controlArrayAtS_ok [LinearOrder K] : ∀ (cs : List (CV K)) (ds : List K) (i : Nat) (s : K) (us : List K),
    ds.length = cs.length → controlArrayAtS cs ds i s = .ok us → us.length = cs.length ∧
      ∀ j (h : j < cs.length) (h' : j < ds.length) (h'' : j < us.length),
        controlAt cs[j] ds[j] i s = .ok us[j] := by
  intro cs
  induction cs with
  | nil =>
    intro ds i s us hl h
    obtain rfl : us = [] := by
      cases ds <;> exact (Res.ok.inj h).symm
    exact ⟨rfl, fun j h => by simp at h⟩
  | cons c cs ih =>
    intro ds i s us hl h
    rcases ds with _ | ⟨d, ds⟩
    · simp at hl
    · obtain ⟨v, h1, h⟩ := Res.bind_eq_ok.1 h
      obtain ⟨vs, h2, h⟩ := Res.bind_eq_ok.1 h
      obtain rfl := Res.ok.inj h
      obtain ⟨h3, h4⟩ := ih ds i s vs (by simpa using hl) h2
      refine ⟨by simp [h3], fun j h h' h'' => ?_⟩
      rcases j with _ | j
      · exact h1
      · exact h4 j (by simpa using h) (by simpa using h') (by simpa using h'')

theorem idx_replicate {α : Type*} {n i : Nat} {a b : α} (h : idx (List.replicate n a) i = .ok b) : b = a := by
  have := idx_eq_ok.1 h
  rw [List.getElem?_replicate] at this
  split at this
  · exact (Option.some.inj this).symm
  · exact absurd this (by simp)

/-- The value of a control variable just built, at any point where it has one. -/
theorem controlVariable_value [Zero K] [LinearOrder K] (c : Config K) (n : Nat) (u d : K) (j i : Nat) (s v : K)
    (ht : c.types j ∈ controlTypes) (h : controlAt (controlVariable c n u j) d i s = .ok v) :
    v = if c.types j = "dont optimize" then d else u := by
  simp only [controlTypes, List.mem_cons, List.not_mem_nil, or_false] at ht
  rcases ht with ht | ht | ht | ht
  · rw [show controlVariable c n u j = createDontOptimize by simp [controlVariable, ht]] at h
    rw [if_pos ht]
    exact (Res.ok.inj h).symm
  · rw [show controlVariable c n u j = createConstant u by simp [controlVariable, ht]] at h
    rw [if_neg (by simp [ht])]
    exact (Res.ok.inj h).symm
  · rw [show controlVariable c n u j = createHypermesh (c.hypermeshes j)
      (List.replicate (c.hypermeshes j).length u) by simp [controlVariable, ht]] at h
    rw [if_neg (by simp [ht])]
    have h : hypermeshValue (createHypermesh (c.hypermeshes j) (List.replicate (c.hypermeshes j).length u)) s =
      .ok v := h
    unfold hypermeshValue at h
    rw [if_neg (by simp [createHypermesh])] at h
    obtain ⟨k, -, h⟩ := Res.bind_eq_ok.1 h
    exact idx_replicate h
  · rw [if_neg (by simp [ht])]
    cases hd : c.isDirect
    · rw [show controlVariable c n u j = createFullMeshD (List.replicate n u) (List.replicate n 0)
        (c.dissipations j) by simp [controlVariable, ht, hd]] at h
      exact idx_replicate (n := n) h
    · rw [show controlVariable c n u j = createFullMesh (List.replicate n u) (c.dissipations j) by
        simp [controlVariable, ht, hd]] at h
      exact idx_replicate (n := n) h

/-! ### The returned data -/

section
variable [LinearOrder K] {car : CarType K} {dflt : List K} {eval : Row K → List K → K → String → Option K}
  {inputs : List (Row K)} {controls : List (CV K)} {vars : List String}

theorem lapRows_ok : ∀ (s : List K) (i : Nat) (rows : List (List K)),
    lapRows car dflt eval inputs controls vars i s = .ok rows → rows.length = s.length ∧
      ∀ k (h : k < s.length) (h' : k < rows.length),
        pointData car dflt eval inputs controls vars (i + k) s[k] = .ok rows[k] := by
  intro s
  induction s with
  | nil =>
    intro i rows h
    obtain rfl := Res.ok.inj h
    exact ⟨rfl, fun k h => by simp at h⟩
  | cons x s ih =>
    intro i rows h
    obtain ⟨r, h1, h⟩ := Res.bind_eq_ok.1 h
    obtain ⟨rs, h2, h⟩ := Res.bind_eq_ok.1 h
    obtain rfl := Res.ok.inj h
    obtain ⟨h3, h4⟩ := ih _ _ h2
    refine ⟨by simp [h3], fun k h h' => ?_⟩
    rcases k with _ | k
    · exact h1
    · have := h4 k (by simpa using h) (by simpa using h')
      rw [show i + (k + 1) = i + 1 + k by omega]
      exact this

theorem lapRows_exists : ∀ (s : List K) (i : Nat),
    (∀ k (h : k < s.length), ∃ r, pointData car dflt eval inputs controls vars (i + k) s[k] = .ok r) →
    ∃ rows, lapRows car dflt eval inputs controls vars i s = .ok rows := by
  intro s
  induction s with
  | nil => intro i _; exact ⟨[], rfl⟩
  | cons x s ih =>
    intro i h
    obtain ⟨r, h1⟩ := h 0 (by simp)
    obtain ⟨rs, h2⟩ := ih (i + 1) fun k hk => by
      have := h (k + 1) (by simpa using hk)
      rw [show i + (k + 1) = i + 1 + k by omega] at this
      exact this
    have h1 : pointData car dflt eval inputs controls vars i x = .ok r := h1
    exact ⟨r :: rs, by simp only [lapRows, h1, h2, Res.bind_ok]⟩

theorem pointData_ok {i : Nat} {s : K} {r : List K} (h : pointData car dflt eval inputs controls vars i s = .ok r) :
    ∃ u q, controlArrayAtS controls dflt i s = .ok u ∧ inputs[i]? = some q ∧ r.length = vars.length ∧
      ∀ k (hk : k < vars.length) (hr : k < r.length), valueAt car s q u (eval q u s) vars[k] = .ok r[k] := by
  obtain ⟨u, h1, h⟩ := Res.bind_eq_ok.1 h
  obtain ⟨q, h2, h⟩ := Res.bind_eq_ok.1 h
  obtain ⟨h3, h4⟩ := mapRes_eq_ok h
  refine ⟨u, q, h1, idx_eq_ok.1 h2, h3, fun k hk hr => ?_⟩
  obtain ⟨b, h5, h6⟩ := h4 k vars[k] (by simp [hk])
  obtain rfl : r[k] = b := by simpa [hr] using h5
  exact h6

end

end Verif.LapOptions
