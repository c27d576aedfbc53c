import Verif.Lemmas.Prepare

/-! The content of the cost-function object after loading a vector, position by position. -/

set_option autoImplicit false

namespace Verif.Transcription

open Verif.Control

variable {K : Type*}

theorem loadInputs_ok (js : List Nat) (hn : js.Nodup) : ∀ (row : Row K) (x : List K),
    js.length ≤ x.length → ∃ row', loadInputs js row x = .ok (row', x.drop js.length) ∧
      (∀ (k j : Nat), js[k]? = some j → x[k]? = some (row' j)) ∧ ∀ j, j ∉ js → row' j = row j := by
  induction js with
  | nil => intro row x _; exact ⟨row, by simp [loadInputs]⟩
  | cons j js ih =>
    intro row x hx
    match x, hx with
    | a :: x, hx =>
      obtain ⟨hj, hjs⟩ := List.nodup_cons.1 hn
      obtain ⟨row', h1, h2, h3⟩ := ih hjs (Function.update row j a) x (by simpa using hx)
      refine ⟨row', ?_, ?_, ?_⟩
      · simpa [loadInputs, pop] using h1
      · intro k j' hk
        cases k with
        | zero =>
          simp only [List.getElem?_cons_zero, Option.some.injEq] at hk ⊢
          subst hk
          rw [h3 _ hj]; simp
        | succ k => simpa using h2 k j' (by simpa using hk)
      · intro j' hj'
        simp only [List.mem_cons, not_or] at hj'
        rw [h3 _ hj'.2]
        exact Function.update_of_ne hj'.1 _ _

theorem loadRow_ok (v : Vehicle K) (hv : v.iTime + 1 < v.nInputs) (row : Row K) (x : List K)
    (hx : v.nInputs - 1 ≤ x.length) :
    ∃ row', loadRow v row x = .ok (row', x.drop (v.nInputs - 1)) ∧
      (∀ j, j < v.nInputs → j ≠ v.iTime → x[inputSlot v j]? = some (row' j)) ∧
      row' v.iTime = row v.iTime := by
  obtain ⟨r1, h1, h2, h3⟩ := loadInputs_ok (List.range v.iTime) List.nodup_range row x (by simp; omega)
  obtain ⟨r2, g1, g2, g3⟩ := loadInputs_ok (List.range' (v.iTime + 1) (v.nInputs - (v.iTime + 1)))
    List.nodup_range' r1 (x.drop v.iTime) (by simp; omega)
  refine ⟨r2, ?_, ?_, ?_⟩
  · simp only [List.length_range] at h1
    simp only [List.length_range', List.drop_drop] at g1
    rw [loadRow, h1]
    simp only [Res.bind_ok, g1]
    congr 3
    omega
  · intro j hj ht
    unfold inputSlot
    split
    · rename_i hlt
      rw [h2 j j (by simp [hlt]), g3 j (by simp [List.mem_range'_1]; omega)]
    · rename_i hge
      have := g2 (j - (v.iTime + 1)) j (by
        rw [List.getElem?_range' (by omega)]; congr 1; omega)
      rw [List.getElem?_drop] at this
      rw [← this]; congr 1; omega
  · rw [g3 _ (by simp [List.mem_range'_1]), h3 _ (by simp)]

theorem loadFull_ok (i : Nat) (cs : List (CV K)) : ∀ (x : List K), nFullMesh cs ≤ x.length →
    (∀ c ∈ cs, c.kind = .fullMesh → i < c.controls.length) →
    ∃ cs', loadFull i cs x = .ok (cs', x.drop (nFullMesh cs)) ∧ cs'.length = cs.length ∧
      ∀ (c : Nat) (cv cv' : CV K), cs[c]? = some cv → cs'[c]? = some cv' →
        (cv.kind ≠ .fullMesh → cv' = cv) ∧ (cv.kind = .fullMesh →
          ∃ a, x[nFullMesh (cs.take c)]? = some a ∧ cv' = { cv with controls := cv.controls.set i a }) := by
  induction cs with
  | nil => intro x _ _; exact ⟨[], by simp [loadFull]⟩
  | cons d cs ih =>
    intro x hx hi
    rw [nFullMesh_cons] at hx
    by_cases hk : d.kind = .fullMesh
    · rw [if_pos hk] at hx
      match x, hx with
      | [], hx => simp at hx
      | a :: x, hx =>
        obtain ⟨cs', h1, h2, h3⟩ := ih x (by simp at hx; omega) (fun c hc => hi c (by simp [hc]))
        refine ⟨{ d with controls := d.controls.set i a } :: cs', ?_, by simp [h2], ?_⟩
        · have := hi d (by simp) hk
          simp [loadFull, hk, pop, setIdx, this, h1, nFullMesh_cons, Nat.add_comm 1]
        · intro c cv cv' hc hc'
          cases c with
          | zero =>
            simp only [List.getElem?_cons_zero, Option.some.injEq] at hc hc'
            subst hc; subst hc'
            exact ⟨fun h => absurd hk h, fun _ => ⟨a, by simp, rfl⟩⟩
          | succ c =>
            simp only [List.getElem?_cons_succ] at hc hc'
            obtain ⟨e1, e2⟩ := h3 c cv cv' hc hc'
            refine ⟨e1, fun h => ?_⟩
            obtain ⟨b, hb, he⟩ := e2 h
            exact ⟨b, by simpa [nFullMesh_cons, hk, Nat.add_comm 1] using hb, he⟩
    · rw [if_neg hk] at hx
      obtain ⟨cs', h1, h2, h3⟩ := ih x (by omega) (fun c hc => hi c (by simp [hc]))
      refine ⟨d :: cs', ?_, by simp [h2], ?_⟩
      · simp [loadFull, hk, h1, nFullMesh_cons]
      · intro c cv cv' hc hc'
        cases c with
        | zero =>
          simp only [List.getElem?_cons_zero, Option.some.injEq] at hc hc'
          subst hc; subst hc'
          exact ⟨fun _ => rfl, fun h => absurd h hk⟩
        | succ c =>
          simp only [List.getElem?_cons_succ] at hc hc'
          obtain ⟨e1, e2⟩ := h3 c cv cv' hc hc'
          refine ⟨e1, fun h => ?_⟩
          obtain ⟨b, hb, he⟩ := e2 h
          exact ⟨b, by simpa [nFullMesh_cons, hk] using hb, he⟩

theorem loadFullDerivative_ok (i : Nat) (cs : List (CV K)) : ∀ (x : List K), nFullMesh cs ≤ x.length →
    (∀ c ∈ cs, c.kind = .fullMesh → i < c.dcontrolsDt.length) →
    ∃ cs', loadFullDerivative i cs x = .ok (cs', x.drop (nFullMesh cs)) ∧ cs'.length = cs.length ∧
      ∀ (c : Nat) (cv cv' : CV K), cs[c]? = some cv → cs'[c]? = some cv' →
        (cv.kind ≠ .fullMesh → cv' = cv) ∧ (cv.kind = .fullMesh →
          ∃ a, x[nFullMesh (cs.take c)]? = some a ∧ cv' = { cv with dcontrolsDt := cv.dcontrolsDt.set i a }) := by
  induction cs with
  | nil => intro x _ _; exact ⟨[], by simp [loadFullDerivative]⟩
  | cons d cs ih =>
    intro x hx hi
    rw [nFullMesh_cons] at hx
    by_cases hk : d.kind = .fullMesh
    · rw [if_pos hk] at hx
      match x, hx with
      | [], hx => simp at hx
      | a :: x, hx =>
        obtain ⟨cs', h1, h2, h3⟩ := ih x (by simp at hx; omega) (fun c hc => hi c (by simp [hc]))
        refine ⟨{ d with dcontrolsDt := d.dcontrolsDt.set i a } :: cs', ?_, by simp [h2], ?_⟩
        · have := hi d (by simp) hk
          simp [loadFullDerivative, hk, pop, setIdx, this, h1, nFullMesh_cons, Nat.add_comm 1]
        · intro c cv cv' hc hc'
          cases c with
          | zero =>
            simp only [List.getElem?_cons_zero, Option.some.injEq] at hc hc'
            subst hc; subst hc'
            exact ⟨fun h => absurd hk h, fun _ => ⟨a, by simp, rfl⟩⟩
          | succ c =>
            simp only [List.getElem?_cons_succ] at hc hc'
            obtain ⟨e1, e2⟩ := h3 c cv cv' hc hc'
            refine ⟨e1, fun h => ?_⟩
            obtain ⟨b, hb, he⟩ := e2 h
            exact ⟨b, by simpa [nFullMesh_cons, hk, Nat.add_comm 1] using hb, he⟩
    · rw [if_neg hk] at hx
      obtain ⟨cs', h1, h2, h3⟩ := ih x (by omega) (fun c hc => hi c (by simp [hc]))
      refine ⟨d :: cs', ?_, by simp [h2], ?_⟩
      · simp [loadFullDerivative, hk, h1, nFullMesh_cons]
      · intro c cv cv' hc hc'
        cases c with
        | zero =>
          simp only [List.getElem?_cons_zero, Option.some.injEq] at hc hc'
          subst hc; subst hc'
          exact ⟨fun _ => rfl, fun h => absurd h hk⟩
        | succ c =>
          simp only [List.getElem?_cons_succ] at hc hc'
          obtain ⟨e1, e2⟩ := h3 c cv cv' hc hc'
          refine ⟨e1, fun h => ?_⟩
          obtain ⟨b, hb, he⟩ := e2 h
          exact ⟨b, by simpa [nFullMesh_cons, hk] using hb, he⟩

theorem loadValues_ok (l : List K) : ∀ (x : List K), l.length ≤ x.length →
    loadValues l x = .ok (x.take l.length, x.drop l.length) := by
  induction l with
  | nil => intro x _; simp [loadValues]
  | cons b l ih =>
    intro x hx
    match x, hx with
    | a :: x, hx =>
      simp [loadValues, pop, ih x (by simpa using hx)]

theorem loadRest_ok (cs : List (CV K)) : ∀ (x : List K), nOther cs ≤ x.length →
    ∃ cs', loadRest cs x = .ok (cs', x.drop (nOther cs)) ∧ cs'.length = cs.length ∧
      ∀ (c : Nat) (cv cv' : CV K), cs[c]? = some cv → cs'[c]? = some cv' →
        (¬ (cv.kind = .constant ∨ cv.kind = .hypermesh) → cv' = cv) ∧
        (cv.kind = .constant ∨ cv.kind = .hypermesh → cv' = { cv with
          controls := (x.drop (nOther (cs.take c))).take cv.controls.length } ∧
          cv'.controls.length = cv.controls.length) := by
  induction cs with
  | nil => intro x _; exact ⟨[], by simp [loadRest]⟩
  | cons d cs ih =>
    intro x hx
    rw [nOther_cons] at hx
    by_cases hk : d.kind = .constant ∨ d.kind = .hypermesh
    · rw [if_pos hk] at hx
      obtain ⟨cs', h1, h2, h3⟩ := ih (x.drop d.controls.length) (by simp; omega)
      refine ⟨{ d with controls := x.take d.controls.length } :: cs', ?_, by simp [h2], ?_⟩
      · rw [List.drop_drop] at h1
        simp only [loadRest, hk, if_true, loadValues_ok d.controls x (by omega), Res.bind_ok, h1, nOther_cons]
      · intro c cv cv' hc hc'
        cases c with
        | zero =>
          simp only [List.getElem?_cons_zero, Option.some.injEq] at hc hc'
          subst hc; subst hc'
          refine ⟨fun h => absurd hk h, fun _ => ⟨by simp, ?_⟩⟩
          simp; omega
        | succ c =>
          simp only [List.getElem?_cons_succ] at hc hc'
          obtain ⟨e1, e2⟩ := h3 c cv cv' hc hc'
          refine ⟨e1, fun h => ?_⟩
          obtain ⟨e3, e4⟩ := e2 h
          refine ⟨?_, e4⟩
          rw [e3]
          simp only [List.take_succ_cons, nOther_cons, hk, if_true, List.drop_drop]
    · rw [if_neg hk] at hx
      obtain ⟨cs', h1, h2, h3⟩ := ih x (by omega)
      refine ⟨d :: cs', ?_, by simp [h2], ?_⟩
      · simp only [loadRest, hk, if_false, Res.bind_ok, h1, nOther_cons, Nat.zero_add]
      · intro c cv cv' hc hc'
        cases c with
        | zero =>
          simp only [List.getElem?_cons_zero, Option.some.injEq] at hc hc'
          subst hc; subst hc'
          exact ⟨fun _ => rfl, fun h => absurd h hk⟩
        | succ c =>
          simp only [List.getElem?_cons_succ] at hc hc'
          obtain ⟨e1, e2⟩ := h3 c cv cv' hc hc'
          refine ⟨e1, fun h => ?_⟩
          obtain ⟨e3, e4⟩ := e2 h
          refine ⟨?_, e4⟩
          rw [e3]
          simp only [List.take_succ_cons, nOther_cons, hk, if_false, Nat.zero_add]

/-- `cs'` is `cs` where the full-mesh controls took new values at the nodes `P`. -/
structure Touched (P : Nat → Prop) (val rate : Nat → Nat → Option K) (cs cs' : List (CV K)) : Prop where
  length : cs'.length = cs.length
  frame : ∀ (c : Nat) (cv cv' : CV K), cs[c]? = some cv → cs'[c]? = some cv' → SameFrame cv cv'
  rest : ∀ (c : Nat) (cv cv' : CV K), cs[c]? = some cv → cs'[c]? = some cv' → cv.kind ≠ .fullMesh → cv' = cv
  values : ∀ (c : Nat) (cv cv' : CV K), cs[c]? = some cv → cs'[c]? = some cv' → cv.kind = .fullMesh →
    ∀ i, i < cv.controls.length → (P i → cv'.controls[i]? = val i c) ∧
      (¬ P i → cv'.controls[i]? = cv.controls[i]?)
  rates : ∀ (c : Nat) (cv cv' : CV K), cs[c]? = some cv → cs'[c]? = some cv' → cv.kind = .fullMesh →
    ∀ i, i < cv.dcontrolsDt.length → (P i → cv'.dcontrolsDt[i]? = rate i c) ∧
      (¬ P i → cv'.dcontrolsDt[i]? = cv.dcontrolsDt[i]?)

theorem SameFrame.refl (c : CV K) : SameFrame c c := ⟨rfl, rfl, rfl, rfl, rfl⟩

theorem SameFrame.trans {a b c : CV K} (h : SameFrame a b) (g : SameFrame b c) : SameFrame a c :=
  ⟨g.kind.trans h.kind, g.mesh.trans h.mesh, g.diss.trans h.diss, g.nValues.trans h.nValues,
    g.nRates.trans h.nRates⟩

theorem exists_get_of_length {α β : Type*} {l : List α} {l' : List β} (h : l'.length = l.length) {i : Nat}
    {a : α} (ha : l[i]? = some a) : ∃ b, l'[i]? = some b :=
  ⟨_, List.getElem?_eq_getElem (by rw [h]; exact (List.getElem?_eq_some_iff.1 ha).1)⟩

theorem Touched.refl (val rate : Nat → Nat → Option K) (cs : List (CV K)) :
    Touched (fun _ => False) val rate cs cs := by
  refine ⟨rfl, ?_, ?_, ?_, ?_⟩
  · intro c a b h g; rw [h] at g; simp only [Option.some.injEq] at g; subst g; exact .refl _
  · intro c a b h g _; rw [h] at g; simp only [Option.some.injEq] at g; exact g.symm
  · intro c a b h g _; rw [h] at g; simp only [Option.some.injEq] at g; subst g; simp
  · intro c a b h g _; rw [h] at g; simp only [Option.some.injEq] at g; subst g; simp

theorem Touched.trans {P Q R : Nat → Prop} {v1 r1 v2 r2 v r : Nat → Nat → Option K}
    {a b c : List (CV K)} (h : Touched P v1 r1 a b) (g : Touched Q v2 r2 b c)
    (hR : ∀ i, R i ↔ P i ∨ Q i) (hdis : ∀ i, P i → ¬ Q i)
    (e1 : ∀ i c, P i → v1 i c = v i c ∧ r1 i c = r i c)
    (e2 : ∀ i c, Q i → v2 i c = v i c ∧ r2 i c = r i c) : Touched R v r a c := by
  refine ⟨g.length.trans h.length, ?_, ?_, ?_, ?_⟩
  · intro k x z hx hz
    obtain ⟨y, hy⟩ := exists_get_of_length h.length hx
    exact (h.frame k x y hx hy).trans (g.frame k y z hy hz)
  · intro k x z hx hz hk
    obtain ⟨y, hy⟩ := exists_get_of_length h.length hx
    have e := h.rest k x y hx hy hk
    subst e
    exact g.rest k y z hy hz hk
  · intro k x z hx hz hk i hi
    obtain ⟨y, hy⟩ := exists_get_of_length h.length hx
    have hf := h.frame k x y hx hy
    have h1 := h.values k x y hx hy hk i hi
    have h2 := g.values k y z hy hz (hf.kind.trans hk) i (by rw [hf.nValues]; exact hi)
    constructor
    · intro hr
      rcases (hR i).1 hr with hp | hq
      · rw [h2.2 (hdis i hp), h1.1 hp, (e1 i k hp).1]
      · rw [h2.1 hq, (e2 i k hq).1]
    · intro hr
      rw [hR, not_or] at hr
      rw [h2.2 hr.2, h1.2 hr.1]
  · intro k x z hx hz hk i hi
    obtain ⟨y, hy⟩ := exists_get_of_length h.length hx
    have hf := h.frame k x y hx hy
    have h1 := h.rates k x y hx hy hk i hi
    have h2 := g.rates k y z hy hz (hf.kind.trans hk) i (by rw [hf.nRates]; exact hi)
    constructor
    · intro hr
      rcases (hR i).1 hr with hp | hq
      · rw [h2.2 (hdis i hp), h1.1 hp, (e1 i k hp).2]
      · rw [h2.1 hq, (e2 i k hq).2]
    · intro hr
      rw [hR, not_or] at hr
      rw [h2.2 hr.2, h1.2 hr.1]

theorem nFullMesh_take_congr {cs cs' : List (CV K)} (hl : cs'.length = cs.length)
    (h : ∀ (c : Nat) (a b : CV K), cs[c]? = some a → cs'[c]? = some b → b.kind = a.kind) (k : Nat) :
    nFullMesh (cs'.take k) = nFullMesh (cs.take k) := by
  apply nFullMesh_congr
  · simp [hl]
  · intro c a b ha hb
    rw [List.getElem?_take] at ha hb
    split at ha
    · rename_i hc
      rw [if_pos hc] at hb
      exact h c a b ha hb
    · simp at ha

theorem nOther_take_congr {cs cs' : List (CV K)} (hl : cs'.length = cs.length)
    (h : ∀ (c : Nat) (a b : CV K), cs[c]? = some a → cs'[c]? = some b → b.kind = a.kind ∧
      b.controls.length = a.controls.length) (k : Nat) :
    nOther (cs'.take k) = nOther (cs.take k) := by
  apply nOther_congr
  · simp [hl]
  · intro c a b ha hb
    rw [List.getElem?_take] at ha hb
    split at ha
    · rename_i hc
      rw [if_pos hc] at hb
      exact h c a b ha hb
    · simp at ha

/-- One node, direct form. -/
theorem loadFull_touched (i : Nat) (cs : List (CV K)) (x : List K) (hx : nFullMesh cs ≤ x.length)
    (hi : ∀ c ∈ cs, c.kind = .fullMesh → i < c.controls.length)
    (hd : ∀ c ∈ cs, c.kind = .fullMesh → c.dcontrolsDt.length = 0) (rate : Nat → Nat → Option K) :
    ∃ cs', loadFull i cs x = .ok (cs', x.drop (nFullMesh cs)) ∧
      Touched (· = i) (fun _ c => x[nFullMesh (cs.take c)]?) rate cs cs' := by
  obtain ⟨cs', h1, h2, h3⟩ := loadFull_ok i cs x hx hi
  refine ⟨cs', h1, h2, ?_, ?_, ?_, ?_⟩
  · intro c cv cv' hc hc'
    obtain ⟨e1, e2⟩ := h3 c cv cv' hc hc'
    by_cases hk : cv.kind = .fullMesh
    · obtain ⟨a, _, e⟩ := e2 hk
      subst e; exact ⟨rfl, rfl, rfl, by simp, rfl⟩
    · rw [e1 hk]; exact .refl _
  · intro c cv cv' hc hc' hk
    exact (h3 c cv cv' hc hc').1 hk
  · intro c cv cv' hc hc' hk n hn
    obtain ⟨a, ha, e⟩ := (h3 c cv cv' hc hc').2 hk
    subst e
    constructor
    · intro hni; subst hni; simp [ha, hn]
    · intro hni; simp [List.getElem?_set_ne (Ne.symm hni)]
  · intro c cv cv' hc hc' hk n hn
    rw [hd cv (List.mem_of_getElem? hc) hk] at hn
    omega

/-- One node, derivative form. -/
theorem loadBoth_touched (i : Nat) (cs : List (CV K)) (x : List K) (hx : 2 * nFullMesh cs ≤ x.length)
    (hi : ∀ c ∈ cs, c.kind = .fullMesh → i < c.controls.length)
    (hd : ∀ c ∈ cs, c.kind = .fullMesh → i < c.dcontrolsDt.length) :
    ∃ cs', ((loadFull i cs x).bind fun cx => loadFullDerivative i cx.1 cx.2) =
        .ok (cs', x.drop (2 * nFullMesh cs)) ∧
      Touched (· = i) (fun _ c => x[nFullMesh (cs.take c)]?)
        (fun _ c => x[nFullMesh cs + nFullMesh (cs.take c)]?) cs cs' := by
  obtain ⟨cs1, h1, h2, h3⟩ := loadFull_ok i cs x (by omega) hi
  have hkind : ∀ (c : Nat) (cv cv' : CV K), cs[c]? = some cv → cs1[c]? = some cv' → cv'.kind = cv.kind := by
    intro c cv cv' hc hc'
    obtain ⟨e1, e2⟩ := h3 c cv cv' hc hc'
    by_cases hk : cv.kind = .fullMesh
    · obtain ⟨a, _, e⟩ := e2 hk
      subst e; rfl
    · rw [e1 hk]
  have hcount : nFullMesh cs1 = nFullMesh cs := nFullMesh_congr _ _ h2.symm hkind
  have hlen1 : ∀ c ∈ cs1, c.kind = .fullMesh → i < c.dcontrolsDt.length := by
    intro cv' hm hk
    obtain ⟨c, hc, rfl⟩ := List.getElem_of_mem hm
    have hc1 : cs1[c]? = some cs1[c] := List.getElem?_eq_getElem hc
    obtain ⟨cv, hcv⟩ := exists_get_of_length h2.symm hc1
    obtain ⟨e1, e2⟩ := h3 c cv _ hcv hc1
    have hk' : cv.kind = .fullMesh := by rw [← hkind c cv _ hcv hc1]; exact hk
    obtain ⟨a, _, e⟩ := e2 hk'
    rw [e]
    exact hd cv (List.mem_of_getElem? hcv) hk'
  obtain ⟨cs2, g1, g2, g3⟩ := loadFullDerivative_ok i cs1 (x.drop (nFullMesh cs))
    (by rw [hcount]; simp; omega) hlen1
  refine ⟨cs2, ?_, g2.trans h2, ?_, ?_, ?_, ?_⟩
  · rw [h1]
    simp only [Res.bind_ok, g1, hcount, List.drop_drop]
    congr 3; omega
  · intro c cv cv' hc hc'
    obtain ⟨cw, hcw⟩ := exists_get_of_length h2 hc
    obtain ⟨e1, e2⟩ := h3 c cv cw hc hcw
    obtain ⟨d1, d2⟩ := g3 c cw cv' hcw hc'
    by_cases hk : cv.kind = .fullMesh
    · obtain ⟨a, _, e⟩ := e2 hk
      subst e
      obtain ⟨b, _, e'⟩ := d2 hk
      subst e'
      exact ⟨rfl, rfl, rfl, by simp, by simp⟩
    · have := e1 hk; subst this
      rw [d1 hk]; exact .refl _
  · intro c cv cv' hc hc' hk
    obtain ⟨cw, hcw⟩ := exists_get_of_length h2 hc
    have := (h3 c cv cw hc hcw).1 hk
    subst this
    exact (g3 c cw cv' hcw hc').1 hk
  · intro c cv cv' hc hc' hk n hn
    obtain ⟨cw, hcw⟩ := exists_get_of_length h2 hc
    obtain ⟨a, ha, e⟩ := (h3 c cv cw hc hcw).2 hk
    subst e
    obtain ⟨b, hb, e'⟩ := (g3 c _ cv' hcw hc').2 hk
    subst e'
    constructor
    · intro hni; subst hni; simp [ha, hn]
    · intro hni; simp [List.getElem?_set_ne (Ne.symm hni)]
  · intro c cv cv' hc hc' hk n hn
    obtain ⟨cw, hcw⟩ := exists_get_of_length h2 hc
    obtain ⟨a, ha, e⟩ := (h3 c cv cw hc hcw).2 hk
    subst e
    obtain ⟨b, hb, e'⟩ := (g3 c _ cv' hcw hc').2 hk
    subst e'
    rw [List.getElem?_drop, nFullMesh_take_congr h2 hkind] at hb
    constructor
    · intro hni; subst hni; simp [hb, hn]
    · intro hni; simp [List.getElem?_set_ne (Ne.symm hni)]

/-- The node loop with the way of loading the controls as a parameter. -/
def loadNodesWith (f : Nat → List (CV K) → List K → Res (List (CV K) × List K)) (v : Vehicle K) :
    List Nat → Loaded K → List K → Res (Loaded K × List K)
  | [], st, x => .ok (st, x)
  | i :: is, st, x =>
    (idx st.inputs i).bind fun row => (loadRow v row x).bind fun rx =>
      (setIdx st.inputs i rx.1).bind fun ins =>
      (f i st.controls rx.2).bind fun cx =>
        loadNodesWith f v is ⟨ins, cx.1⟩ cx.2

theorem loadNodesDirect_with (v : Vehicle K) (is : List Nat) : ∀ st x,
    loadNodesDirect v is st x = loadNodesWith loadFull v is st x := by
  induction is with
  | nil => intro st x; rfl
  | cons i is ih => intro st x; simp only [loadNodesDirect, loadNodesWith, ih]

theorem Res_bind_assoc {α β γ : Type*} (x : Res α) (f : α → Res β) (g : β → Res γ) :
    (x.bind f).bind g = x.bind fun a => (f a).bind g := by cases x <;> rfl

theorem loadNodesDerivative_with (v : Vehicle K) (is : List Nat) : ∀ st x,
    loadNodesDerivative v is st x = loadNodesWith
      (fun i cs x => (loadFull i cs x).bind fun cx => loadFullDerivative i cx.1 cx.2) v is st x := by
  induction is with
  | nil => intro st x; rfl
  | cons i is ih => intro st x; simp only [loadNodesDerivative, loadNodesWith, ih, Res_bind_assoc]

/-- The rows after the nodes `k ≤ i < k + m` were loaded from blocks of size `B`. -/
structure RowsLoaded (v : Vehicle K) (k m B : Nat) (x : List K) (a b : List (Row K)) : Prop where
  length : b.length = a.length
  time : ∀ (i : Nat) (ra rb : Row K), a[i]? = some ra → b[i]? = some rb → rb v.iTime = ra v.iTime
  loaded : ∀ (i : Nat) (rb : Row K), k ≤ i → i < k + m → b[i]? = some rb → ∀ j, j < v.nInputs → j ≠ v.iTime →
    x[(i - k) * B + inputSlot v j]? = some (rb j)
  kept : ∀ i, ¬ (k ≤ i ∧ i < k + m) → b[i]? = a[i]?

theorem loadNodesWith_ok (f : Nat → List (CV K) → List K → Res (List (CV K) × List K)) (v : Vehicle K)
    (hv : v.iTime + 1 < v.nInputs) (p : Problem K) (w : Nat)
    (val rate : List K → Nat → Option K)
    (hf : ∀ (i : Nat) (st : Loaded K) (x : List K), i < p.nPoints → FitsProblem p st → w ≤ x.length →
      ∃ cs', f i st.controls x = .ok (cs', x.drop w) ∧
        Touched (· = i) (fun _ c => val x c) (fun _ c => rate x c) st.controls cs')
    (m : Nat) : ∀ (k : Nat) (st : Loaded K) (x : List K), k + m ≤ p.nPoints → FitsProblem p st →
      m * (v.nInputs - 1 + w) ≤ x.length →
      ∃ st', loadNodesWith f v (List.range' k m) st x = .ok (st', x.drop (m * (v.nInputs - 1 + w))) ∧
        FitsProblem p st' ∧ RowsLoaded v k m (v.nInputs - 1 + w) x st.inputs st'.inputs ∧
        Touched (fun i => k ≤ i ∧ i < k + m)
          (fun i c => val (x.drop ((i - k) * (v.nInputs - 1 + w) + (v.nInputs - 1))) c)
          (fun i c => rate (x.drop ((i - k) * (v.nInputs - 1 + w) + (v.nInputs - 1))) c)
          st.controls st'.controls := by
  induction m with
  | zero =>
    intro k st x _ hst _
    refine ⟨st, by simp [loadNodesWith], hst, ⟨rfl, ?_, ?_, ?_⟩, ?_⟩
    · intro i ra rb h g; rw [h] at g; simp only [Option.some.injEq] at g; rw [g]
    · intro i rb h1 h2; omega
    · intro i _; rfl
    · have hR : (fun i => k ≤ i ∧ i < k + 0) = fun _ => False := by
        funext i; simp
      rw [hR]; exact Touched.refl _ _ _
  | succ m ih =>
    intro k st x hk hst hx
    have hB : (m + 1) * (v.nInputs - 1 + w) = (v.nInputs - 1 + w) + m * (v.nInputs - 1 + w) := by ring
    generalize hBd : v.nInputs - 1 + w = B at *
    have hkl : k < st.inputs.length := by rw [hst.inputs]; omega
    obtain ⟨row, hrow⟩ : ∃ row, st.inputs[k]? = some row := ⟨_, List.getElem?_eq_getElem hkl⟩
    obtain ⟨row', h1, h2, h3⟩ := loadRow_ok v hv row x (by omega)
    obtain ⟨cs', g1, g2⟩ := hf k st (x.drop (v.nInputs - 1)) (by omega) hst (by simp; omega)
    have hfit : FitsProblem p ⟨st.inputs.set k row', cs'⟩ := by
      refine ⟨by simpa using hst.inputs, g2.length.trans hst.controls, ?_⟩
      intro c cv cv' hc hc'
      obtain ⟨cw, hcw⟩ := exists_get_of_length hst.controls hc
      exact (hst.frames c cv cw hc hcw).trans (g2.frame c cw cv' hcw hc')
    obtain ⟨st', i1, i2, i3, i4⟩ := ih (k + 1) ⟨st.inputs.set k row', cs'⟩ (x.drop B) (by omega) hfit
      (by simp; omega)
    refine ⟨st', ?_, i2, ⟨?_, ?_, ?_, ?_⟩, ?_⟩
    · rw [List.range'_succ, loadNodesWith, idx_eq_ok.2 hrow]
      simp only [Res.bind_ok, h1, setIdx, hkl, if_true, g1, List.drop_drop, hBd, i1, hB]
    · rw [i3.length]; simp
    · intro i ra rb hra hrb
      by_cases hik : i = k
      · subst hik
        rw [hrow] at hra
        simp only [Option.some.injEq] at hra
        subst hra
        rw [i3.time i row' rb (by simp [hkl]) hrb, h3]
      · exact i3.time i ra rb (by simp only [List.getElem?_set_ne (Ne.symm hik)]; exact hra) hrb
    · intro i rb hi1 hi2 hrb j hj ht
      by_cases hik : i = k
      · subst hik
        have e := i3.kept i (by omega)
        rw [hrb] at e
        simp only [List.getElem?_set_self hkl, Option.some.injEq] at e
        subst e
        simpa using h2 j hj ht
      · have := i3.loaded i rb (by omega) (by omega) hrb j hj ht
        rw [List.getElem?_drop] at this
        rw [← this]
        congr 1
        have : (i - k) * B = B + (i - (k + 1)) * B := by
          have : i - k = (i - (k + 1)) + 1 := by omega
          rw [this]; ring
        omega
    · intro i hi
      rw [i3.kept i (by omega)]
      exact List.getElem?_set_ne (by omega)
    · refine g2.trans i4 (fun i => by constructor <;> (intro h; omega)) (fun i h => by omega) ?_ ?_
      · rintro i c rfl
        simp
      · intro i c hi
        have : (i - k) * B + (v.nInputs - 1) = B + ((i - (k + 1)) * B + (v.nInputs - 1)) := by
          have : i - k = (i - (k + 1)) + 1 := by omega
          rw [this]; ring
        simp only [List.drop_drop]
        rw [this]
        exact ⟨rfl, rfl⟩

theorem loadFirstControls_touched (cs : List (CV K)) : ∀ (us : List K), us.length = cs.length →
    (∀ c ∈ cs, c.kind = .fullMesh → 0 < c.controls.length) →
    (∀ c ∈ cs, c.kind = .fullMesh → c.dcontrolsDt.length = 0) → ∀ (rate : Nat → Nat → Option K),
    ∃ cs', loadFirstControls cs us = .ok cs' ∧ Touched (· = 0) (fun _ c => us[c]?) rate cs cs' := by
  induction cs with
  | nil =>
    intro us _ _ _ rate
    refine ⟨[], by cases us <;> rfl, rfl, ?_, ?_, ?_, ?_⟩ <;> simp
  | cons d cs ih =>
    intro us hu hc hd rate
    match us, hu with
    | u :: us, hu =>
      obtain ⟨cs', h1, h2⟩ := ih us (by simpa using hu) (fun c h => hc c (by simp [h]))
        (fun c h => hd c (by simp [h])) (fun i c => rate i (c + 1))
      by_cases hk : d.kind = .fullMesh
      · have h0 := hc d (by simp) hk
        refine ⟨{ d with controls := d.controls.set 0 u } :: cs',
          by simp [loadFirstControls, hk, setIdx, h0, h1], by simp [h2.length], ?_, ?_, ?_, ?_⟩
        · intro c cv cv' e e'
          cases c with
          | zero => simp at e e'; subst e; subst e'; exact ⟨rfl, rfl, rfl, by simp, rfl⟩
          | succ c => exact h2.frame c cv cv' (by simpa using e) (by simpa using e')
        · intro c cv cv' e e' hn
          cases c with
          | zero => simp at e; subst e; exact absurd hk hn
          | succ c => exact h2.rest c cv cv' (by simpa using e) (by simpa using e') hn
        · intro c cv cv' e e' hn i hi
          cases c with
          | zero =>
            simp at e e'; subst e; subst e'
            constructor
            · rintro rfl; simp [h0]
            · intro hne; simp [List.getElem?_set_ne (Ne.symm hne)]
          | succ c => simpa using h2.values c cv cv' (by simpa using e) (by simpa using e') hn i hi
        · intro c cv cv' e e' hn i hi
          rw [hd cv (List.mem_of_getElem? e) hn] at hi; omega
      · refine ⟨d :: cs', by simp [loadFirstControls, hk, h1], by simp [h2.length], ?_, ?_, ?_, ?_⟩
        · intro c cv cv' e e'
          cases c with
          | zero => simp at e e'; subst e; subst e'; exact .refl _
          | succ c => exact h2.frame c cv cv' (by simpa using e) (by simpa using e')
        · intro c cv cv' e e' hn
          cases c with
          | zero => simp at e e'; subst e; subst e'; rfl
          | succ c => exact h2.rest c cv cv' (by simpa using e) (by simpa using e') hn
        · intro c cv cv' e e' hn i hi
          cases c with
          | zero => simp at e; subst e; exact absurd hn hk
          | succ c => simpa using h2.values c cv cv' (by simpa using e) (by simpa using e') hn i hi
        · intro c cv cv' e e' hn i hi
          rw [hd cv (List.mem_of_getElem? e) hn] at hi; omega

theorem loadFirstControlsD_touched (cs : List (CV K)) : ∀ (us : List (K × K)), us.length = cs.length →
    (∀ c ∈ cs, c.kind = .fullMesh → 0 < c.controls.length) →
    (∀ c ∈ cs, c.kind = .fullMesh → 0 < c.dcontrolsDt.length) →
    ∃ cs', loadFirstControlsD cs us = .ok cs' ∧
      Touched (· = 0) (fun _ c => (us[c]?).map Prod.fst) (fun _ c => (us[c]?).map Prod.snd) cs cs' := by
  induction cs with
  | nil =>
    intro us _ _ _
    refine ⟨[], by cases us <;> rfl, rfl, ?_, ?_, ?_, ?_⟩ <;> simp
  | cons d cs ih =>
    intro us hu hc hd
    match us, hu with
    | u :: us, hu =>
      obtain ⟨cs', h1, h2⟩ := ih us (by simpa using hu) (fun c h => hc c (by simp [h]))
        (fun c h => hd c (by simp [h]))
      by_cases hk : d.kind = .fullMesh
      · have h0 := hc d (by simp) hk
        have h0' := hd d (by simp) hk
        refine ⟨{ d with controls := d.controls.set 0 u.1, dcontrolsDt := d.dcontrolsDt.set 0 u.2 } :: cs',
          by simp [loadFirstControlsD, hk, setIdx, h0, h0', h1], by simp [h2.length], ?_, ?_, ?_, ?_⟩
        · intro c cv cv' e e'
          cases c with
          | zero => simp at e e'; subst e; subst e'; exact ⟨rfl, rfl, rfl, by simp, by simp⟩
          | succ c => exact h2.frame c cv cv' (by simpa using e) (by simpa using e')
        · intro c cv cv' e e' hn
          cases c with
          | zero => simp at e; subst e; exact absurd hk hn
          | succ c => exact h2.rest c cv cv' (by simpa using e) (by simpa using e') hn
        · intro c cv cv' e e' hn i hi
          cases c with
          | zero =>
            simp at e e'; subst e; subst e'
            constructor
            · rintro rfl; simp [h0]
            · intro hne; simp [List.getElem?_set_ne (Ne.symm hne)]
          | succ c => simpa using h2.values c cv cv' (by simpa using e) (by simpa using e') hn i hi
        · intro c cv cv' e e' hn i hi
          cases c with
          | zero =>
            simp at e e'; subst e; subst e'
            constructor
            · rintro rfl; simp [h0']
            · intro hne; simp [List.getElem?_set_ne (Ne.symm hne)]
          | succ c => simpa using h2.rates c cv cv' (by simpa using e) (by simpa using e') hn i hi
      · refine ⟨d :: cs', by simp [loadFirstControlsD, hk, h1], by simp [h2.length], ?_, ?_, ?_, ?_⟩
        · intro c cv cv' e e'
          cases c with
          | zero => simp at e e'; subst e; subst e'; exact .refl _
          | succ c => exact h2.frame c cv cv' (by simpa using e) (by simpa using e')
        · intro c cv cv' e e' hn
          cases c with
          | zero => simp at e e'; subst e; subst e'; rfl
          | succ c => exact h2.rest c cv cv' (by simpa using e) (by simpa using e') hn
        · intro c cv cv' e e' hn i hi
          cases c with
          | zero => simp at e; subst e; exact absurd hn hk
          | succ c => simpa using h2.values c cv cv' (by simpa using e) (by simpa using e') hn i hi
        · intro c cv cv' e e' hn i hi
          cases c with
          | zero => simp at e; subst e; exact absurd hn hk
          | succ c => simpa using h2.rates c cv cv' (by simpa using e) (by simpa using e') hn i hi

/-- The loader with the two form-dependent steps as parameters. -/
def loadWith (first : List (CV K) → Res (List (CV K)))
    (f : Nat → List (CV K) → List K → Res (List (CV K) × List K)) (v : Vehicle K) (p : Problem K)
    (ini : Initial K) (st : Loaded K) (x : List K) : Res (Loaded K × List K) :=
  (if p.isClosed then .ok st
    else (setIdx st.inputs 0 ini.inputs).bind fun ins =>
      (first st.controls).bind fun cs => .ok ⟨ins, cs⟩).bind
    fun st1 =>
  (loadNodesWith f v (nodeIndices p) st1 x).bind fun sx =>
    (loadRest sx.1.controls sx.2).bind fun cx => .ok (⟨sx.1.inputs, cx.1⟩, cx.2)

theorem loadDirect_with (v : Vehicle K) (p : Problem K) (ini : Initial K) (st : Loaded K) (x : List K) :
    loadDirect v p ini st x =
      loadWith (fun cs => loadFirstControls cs (ini.controls.map Prod.fst)) loadFull v p ini st x := by
  simp only [loadDirect, loadWith, loadNodesDirect_with]

theorem loadDerivative_with (v : Vehicle K) (p : Problem K) (ini : Initial K) (st : Loaded K) (x : List K) :
    loadDerivative v p ini st x =
      loadWith (fun cs => loadFirstControlsD cs ini.controls)
        (fun i cs x => (loadFull i cs x).bind fun cx => loadFullDerivative i cx.1 cx.2) v p ini st x := by
  simp only [loadDerivative, loadWith, loadNodesDerivative_with]

/-- Number of control values in a block. -/
def controlBlock (p : Problem K) : Nat :=
  if p.isDirect then nFullMesh p.controls else 2 * nFullMesh p.controls

theorem FitsProblem.kinds {p : Problem K} {st : Loaded K} (h : FitsProblem p st) :
    ∀ (c : Nat) (a b : CV K), p.controls[c]? = some a → st.controls[c]? = some b → b.kind = a.kind :=
  fun c a b ha hb => (h.frames c a b ha hb).kind

theorem FitsProblem.mem {p : Problem K} {st : Loaded K} (h : FitsProblem p st) {cv' : CV K}
    (hm : cv' ∈ st.controls) : ∃ cv ∈ p.controls, SameFrame cv cv' := by
  obtain ⟨c, hc, rfl⟩ := List.getElem_of_mem hm
  have hc1 : st.controls[c]? = some st.controls[c] := List.getElem?_eq_getElem hc
  obtain ⟨cv, hcv⟩ := exists_get_of_length h.controls.symm hc1
  exact ⟨cv, List.mem_of_getElem? hcv, h.frames c cv _ hcv hc1⟩

theorem loadWith_decoded (first : List (CV K) → Res (List (CV K)))
    (f : Nat → List (CV K) → List K → Res (List (CV K) × List K)) (v : Vehicle K)
    (hv : v.iTime + 1 < v.nInputs) (p : Problem K) (hp : Shape p) (ini : Initial K)
    (hfirst : ∀ st : Loaded K, FitsProblem p st → ∃ cs', first st.controls = .ok cs' ∧
      Touched (· = 0) (fun _ c => (ini.controls[c]?).map Prod.fst) (fun _ c => (ini.controls[c]?).map Prod.snd)
        st.controls cs')
    (hf : ∀ (i : Nat) (st : Loaded K) (x : List K), i < p.nPoints → FitsProblem p st →
      controlBlock p ≤ x.length →
      ∃ cs', f i st.controls x = .ok (cs', x.drop (controlBlock p)) ∧
        Touched (· = i) (fun _ c => x[nFullMesh (p.controls.take c)]?)
          (fun _ c => x[nFullMesh p.controls + nFullMesh (p.controls.take c)]?) st.controls cs')
    (st : Loaded K) (hst : FitsProblem p st) (x : List K) (hx : x.length = nVariables v p) :
    ∃ st', loadWith first f v p ini st x = .ok (st', []) ∧ Decoded v p ini st st' x := by
  have hbs : blockSize v p.isDirect p.controls = v.nInputs - 1 + controlBlock p := rfl
  -- first stage
  have hs1 : ∃ st1 : Loaded K, (if p.isClosed then Res.ok st
      else (setIdx st.inputs 0 ini.inputs).bind fun ins =>
        (first st.controls).bind fun cs => .ok ⟨ins, cs⟩) = .ok st1 ∧ FitsProblem p st1 ∧
      (∀ i, 0 < i → st1.inputs[i]? = st.inputs[i]?) ∧
      (p.isClosed = true → st1 = st) ∧
      (p.isClosed = false → st1.inputs[0]? = some ini.inputs ∧
        Touched (· = 0) (fun _ c => (ini.controls[c]?).map Prod.fst) (fun _ c => (ini.controls[c]?).map Prod.snd)
        st.controls st1.controls) := by
    cases hc : p.isClosed with
    | true => exact ⟨st, by simp, hst, fun _ _ => rfl, fun _ => rfl, fun h => by simp at h⟩
    | false =>
      obtain ⟨cs', h1, h2⟩ := hfirst st hst
      have h0 : 0 < st.inputs.length := by rw [hst.inputs]; have := hp.two; omega
      refine ⟨⟨st.inputs.set 0 ini.inputs, cs'⟩, by simp [setIdx, h0, h1], ?_, ?_, fun h => by simp at h,
        fun _ => ⟨by simp [h0], h2⟩⟩
      · refine ⟨by simpa using hst.inputs, h2.length.trans hst.controls, ?_⟩
        intro c cv cv' hc hc'
        obtain ⟨cw, hcw⟩ := exists_get_of_length hst.controls hc
        exact (hst.frames c cv cw hc hcw).trans (h2.frame c cw cv' hcw hc')
      · intro i hi
        exact List.getElem?_set_ne (by omega)
  obtain ⟨st1, a1, a2, a3, a4, a5⟩ := hs1
  -- nodes
  have hnv := nVariables_eq v p hp
  have hfn : firstNode p.isClosed ≤ 1 := by unfold firstNode; split <;> omega
  have htwo := hp.two
  obtain ⟨st2, b1, b2, b3, b4⟩ := loadNodesWith_ok f v hv p (controlBlock p) _ _ hf
    (p.nPoints - firstNode p.isClosed) (firstNode p.isClosed) st1 x (by omega) a2
    (by rw [← hbs, hx, hnv]; omega)
  rw [← hbs] at b1 b3 b4
  -- the rest
  have hother : nOther st2.controls = nOther p.controls :=
    nOther_congr _ _ b2.controls.symm (fun c a b ha hb =>
      ⟨(b2.frames c a b ha hb).kind, (b2.frames c a b ha hb).nValues⟩)
  obtain ⟨cs3, c1, c2, c3⟩ := loadRest_ok st2.controls
    (x.drop ((p.nPoints - firstNode p.isClosed) * blockSize v p.isDirect p.controls))
    (by rw [hother, List.length_drop, hx, hnv]; omega)
  have hframe3 : ∀ (c : Nat) (cv cv' : CV K), st2.controls[c]? = some cv → cs3[c]? = some cv' →
      SameFrame cv cv' := by
    intro c cv cv' hc hc'
    obtain ⟨e1, e2⟩ := c3 c cv cv' hc hc'
    by_cases hk : cv.kind = .constant ∨ cv.kind = .hypermesh
    · obtain ⟨e3, e4⟩ := e2 hk
      exact ⟨by rw [e3], by rw [e3], by rw [e3], e4, by rw [e3]⟩
    · rw [e1 hk]; exact .refl _
  have hinp : st2.inputs.length = p.nPoints := b2.inputs
  refine ⟨⟨st2.inputs, cs3⟩, ?_, ?_, ?_, ?_, ?_, ?_, ?_⟩
  · rw [loadWith, a1]
    simp only [Res.bind_ok, nodeIndices, offset_eq, b1, c1, hother, List.drop_drop, ← hnv]
    rw [List.drop_of_length_le (by omega)]
  · refine ⟨hinp, c2.trans b2.controls, ?_⟩
    intro c cv cv' hc hc'
    obtain ⟨cw, hcw⟩ := exists_get_of_length b2.controls hc
    exact (b2.frames c cv cw hc hcw).trans (hframe3 c cw cv' hcw hc')
  · -- Holds
    have hfull : ∀ (c : Nat) (cv : CV K), cs3[c]? = some cv → cv.kind = .fullMesh →
        st2.controls[c]? = some cv ∧ ∃ cv1 cv0, st1.controls[c]? = some cv1 ∧ p.controls[c]? = some cv0 ∧
          cv1.kind = .fullMesh ∧ cv0.kind = .fullMesh ∧ SameFrame cv0 cv1 := by
      intro c cv hc hk
      obtain ⟨cw, hcw⟩ := exists_get_of_length c2.symm hc
      have hkw : cw.kind = .fullMesh := by rw [← (hframe3 c cw cv hcw hc).kind]; exact hk
      have := (c3 c cw cv hcw hc).1 (by simp [hkw])
      subst this
      obtain ⟨cv1, h1⟩ := exists_get_of_length b4.length.symm hcw
      obtain ⟨cv0, h0⟩ := exists_get_of_length a2.controls.symm h1
      have hf1 := b4.frame c cv1 cv h1 hcw
      have hf0 := a2.frames c cv0 cv1 h0 h1
      exact ⟨hcw, cv1, cv0, h1, h0, hf1.kind.symm.trans hk, (hf0.kind.symm.trans (hf1.kind.symm.trans hk)), hf0⟩
    refine ⟨?_, ?_, ?_, ?_⟩
    · intro i j row hi hj ht hr
      have hi1 := hi.1
      have hi2 := hi.2
      exact b3.loaded i row hi1 (by omega) hr j hj ht
    · intro i c cv hi hc hk
      have hi1 := hi.1
      have hi2 := hi.2
      obtain ⟨hcw, cv1, cv0, h1, h0, hk1, hk0, hfr⟩ := hfull c cv hc hk
      have hlen : i < cv1.controls.length := by
        rw [hfr.nValues, hp.values cv0 (List.mem_of_getElem? h0) hk0]; exact hi.2
      have hval := (b4.values c cv1 cv h1 hcw hk1 i hlen).1 ⟨hi1, by omega⟩
      have hlen' : i < cv.controls.length := by rw [(b4.frame c cv1 cv h1 hcw).nValues]; exact hlen
      refine ⟨cv.controls[i], List.getElem?_eq_getElem hlen', ?_⟩
      rw [List.getElem?_eq_getElem hlen', List.getElem?_drop] at hval
      rw [hval, fullPos, blockStart]
    · intro hd i c cv hi hc hk
      have hi1 := hi.1
      have hi2 := hi.2
      obtain ⟨hcw, cv1, cv0, h1, h0, hk1, hk0, hfr⟩ := hfull c cv hc hk
      have hlen : i < cv1.dcontrolsDt.length := by
        rw [hfr.nRates, hp.rates cv0 (List.mem_of_getElem? h0) hk0, hd]; exact hi.2
      have hval := (b4.rates c cv1 cv h1 hcw hk1 i hlen).1 ⟨hi1, by omega⟩
      have hlen' : i < cv.dcontrolsDt.length := by rw [(b4.frame c cv1 cv h1 hcw).nRates]; exact hlen
      refine ⟨cv.dcontrolsDt[i], List.getElem?_eq_getElem hlen', ?_⟩
      rw [List.getElem?_eq_getElem hlen', List.getElem?_drop, ← Nat.add_assoc] at hval
      rw [hval, ratePos, blockStart]
    · intro c k cv hc hk hkl
      obtain ⟨cw, hcw⟩ := exists_get_of_length c2.symm hc
      have hkw : cw.kind = .constant ∨ cw.kind = .hypermesh := by
        rw [← (hframe3 c cw cv hcw hc).kind]; exact hk
      obtain ⟨e3, e4⟩ := (c3 c cw cv hcw hc).2 hkw
      have hg : cv.controls[k]? = x[otherPos v p c k]? := by
        rw [e3]
        simp only
        rw [List.getElem?_take_of_lt (by omega), List.getElem?_drop, List.getElem?_drop,
          nOther_take_congr b2.controls (fun c a b ha hb =>
            ⟨(b2.frames c a b ha hb).kind, (b2.frames c a b ha hb).nValues⟩), otherPos, Nat.add_assoc]
      exact ⟨cv.controls[k], List.getElem?_eq_getElem hkl, by rw [← hg]; exact List.getElem?_eq_getElem hkl⟩
  · -- time
    intro i ra rb hi hra hrb
    obtain ⟨r1, hr1⟩ := exists_get_of_length (a2.inputs.trans hst.inputs.symm) hra
    have e := b3.time i r1 rb hr1 hrb
    rw [e]
    cases hc : p.isClosed with
    | true =>
      rw [a4 hc, hra] at hr1
      simp only [Option.some.injEq] at hr1
      rw [hr1]
    | false =>
      have hi1 := hi.1
      rw [hc] at hi1
      simp [firstNode] at hi1
      rw [a3 i (by omega), hra] at hr1
      simp only [Option.some.injEq] at hr1
      rw [hr1]
  · intro hc
    have : firstNode p.isClosed = 1 := by simp [firstNode, hc]
    rw [b3.kept 0 (by omega)]
    exact (a5 hc).1
  · intro hc c cv hcv hk
    have hf1 : firstNode p.isClosed = 1 := by simp [firstNode, hc]
    obtain ⟨cw, hcw⟩ := exists_get_of_length c2.symm hcv
    have hkw : cw.kind = .fullMesh := by rw [← (hframe3 c cw cv hcw hcv).kind]; exact hk
    have := (c3 c cw cv hcw hcv).1 (by simp [hkw])
    subst this
    obtain ⟨cv1, h1⟩ := exists_get_of_length b4.length.symm hcw
    have hfr1 := b4.frame c cv1 cv h1 hcw
    have hk1 : cv1.kind = .fullMesh := hfr1.kind.symm.trans hk
    obtain ⟨cv0, h0⟩ := exists_get_of_length a2.controls.symm h1
    have hfr0 := a2.frames c cv0 cv1 h0 h1
    have hk0 : cv0.kind = .fullMesh := hfr0.kind.symm.trans hk1
    have ht := (a5 hc).2
    obtain ⟨cs, hs⟩ := exists_get_of_length ht.length.symm h1
    have hfrs := ht.frame c cs cv1 hs h1
    have hks : cs.kind = .fullMesh := hfrs.kind.symm.trans hk1
    constructor
    · have hl1 : 0 < cv1.controls.length := by
        rw [hfr0.nValues, hp.values cv0 (List.mem_of_getElem? h0) hk0]; omega
      rw [(b4.values c cv1 cv h1 hcw hk1 0 hl1).2 (by omega)]
      exact (ht.values c cs cv1 hs h1 hks 0 (by rw [← hfrs.nValues]; exact hl1)).1 rfl
    · intro hd
      have hl1 : 0 < cv1.dcontrolsDt.length := by
        rw [hfr0.nRates, hp.rates cv0 (List.mem_of_getElem? h0) hk0, hd]; simp; omega
      rw [(b4.rates c cv1 cv h1 hcw hk1 0 hl1).2 (by omega)]
      exact (ht.rates c cs cv1 hs h1 hks 0 (by rw [← hfrs.nRates]; exact hl1)).1 rfl
  · intro c cv cv' hcv hcv' k1 k2 k3
    have hone : ∃ cv1, st1.controls[c]? = some cv1 ∧ cv1 = cv := by
      cases hc : p.isClosed with
      | true => rw [a4 hc]; exact ⟨cv, hcv, rfl⟩
      | false =>
        obtain ⟨cv1, h1⟩ := exists_get_of_length (a5 hc).2.length hcv
        exact ⟨cv1, h1, (a5 hc).2.rest c cv cv1 hcv h1 k3⟩
    obtain ⟨cv1, h1, rfl⟩ := hone
    obtain ⟨cw, hcw⟩ := exists_get_of_length b4.length h1
    have e := b4.rest c cv1 cw h1 hcw k3
    subst e
    exact (c3 c cw cv' hcw hcv').1 (by simp [k1, k2])

theorem loadDirect_decoded (v : Vehicle K) (hv : v.iTime + 1 < v.nInputs) (p : Problem K) (hp : Shape p)
    (hd : p.isDirect = true) (ini : Initial K) (hi : ini.controls.length = p.controls.length)
    (st : Loaded K) (hst : FitsProblem p st) (x : List K) (hx : x.length = nVariables v p) :
    ∃ st', loadDirect v p ini st x = .ok (st', []) ∧ Decoded v p ini st st' x := by
  rw [loadDirect_with]
  have htwo := hp.two
  have hval : ∀ st : Loaded K, FitsProblem p st → ∀ c ∈ st.controls, c.kind = .fullMesh →
      c.controls.length = p.nPoints ∧ c.dcontrolsDt.length = 0 := by
    intro st hst c hc hk
    obtain ⟨cv, hm, hf⟩ := hst.mem hc
    have hk' : cv.kind = .fullMesh := hf.kind.symm.trans hk
    refine ⟨hf.nValues.trans (hp.values cv hm hk'), hf.nRates.trans ?_⟩
    rw [hp.rates cv hm hk', hd]; rfl
  refine loadWith_decoded _ _ v hv p hp ini ?_ ?_ st hst x hx
  · intro st hst
    obtain ⟨cs', h1, h2⟩ := loadFirstControls_touched st.controls (ini.controls.map Prod.fst)
      (by simp [hi, hst.controls]) (fun c hc hk => by rw [(hval st hst c hc hk).1]; omega)
      (fun c hc hk => (hval st hst c hc hk).2) (fun _ c => (ini.controls[c]?).map Prod.snd)
    refine ⟨cs', h1, ?_⟩
    simpa using h2
  · intro i st x hi hst hx
    have hcb : controlBlock p = nFullMesh p.controls := by simp [controlBlock, hd]
    have hcount : nFullMesh st.controls = nFullMesh p.controls :=
      nFullMesh_congr _ _ hst.controls.symm hst.kinds
    obtain ⟨cs', h1, h2⟩ := loadFull_touched i st.controls x (by omega)
      (fun c hc hk => by rw [(hval st hst c hc hk).1]; exact hi)
      (fun c hc hk => (hval st hst c hc hk).2)
      (fun _ c => x[nFullMesh p.controls + nFullMesh (p.controls.take c)]?)
    rw [hcount] at h1
    refine ⟨cs', by rw [hcb]; exact h1, ?_⟩
    have : (fun (_ : Nat) c => x[nFullMesh (st.controls.take c)]?) =
        fun _ c => x[nFullMesh (p.controls.take c)]? := by
      funext _ c; rw [nFullMesh_take_congr hst.controls hst.kinds]
    rw [this] at h2
    exact h2

theorem loadDerivative_decoded (v : Vehicle K) (hv : v.iTime + 1 < v.nInputs) (p : Problem K) (hp : Shape p)
    (hd : p.isDirect = false) (ini : Initial K) (hi : ini.controls.length = p.controls.length)
    (st : Loaded K) (hst : FitsProblem p st) (x : List K) (hx : x.length = nVariables v p) :
    ∃ st', loadDerivative v p ini st x = .ok (st', []) ∧ Decoded v p ini st st' x := by
  rw [loadDerivative_with]
  have htwo := hp.two
  have hval : ∀ st : Loaded K, FitsProblem p st → ∀ c ∈ st.controls, c.kind = .fullMesh →
      c.controls.length = p.nPoints ∧ c.dcontrolsDt.length = p.nPoints := by
    intro st hst c hc hk
    obtain ⟨cv, hm, hf⟩ := hst.mem hc
    have hk' : cv.kind = .fullMesh := hf.kind.symm.trans hk
    refine ⟨hf.nValues.trans (hp.values cv hm hk'), hf.nRates.trans ?_⟩
    rw [hp.rates cv hm hk', hd]; rfl
  refine loadWith_decoded _ _ v hv p hp ini ?_ ?_ st hst x hx
  · intro st hst
    exact loadFirstControlsD_touched st.controls ini.controls
      (by simp [hi, hst.controls]) (fun c hc hk => by rw [(hval st hst c hc hk).1]; omega)
      (fun c hc hk => by rw [(hval st hst c hc hk).2]; omega)
  · intro i st x hi hst hx
    have hcb : controlBlock p = 2 * nFullMesh p.controls := by simp [controlBlock, hd]
    have hcount : nFullMesh st.controls = nFullMesh p.controls :=
      nFullMesh_congr _ _ hst.controls.symm hst.kinds
    obtain ⟨cs', h1, h2⟩ := loadBoth_touched i st.controls x (by omega)
      (fun c hc hk => by rw [(hval st hst c hc hk).1]; exact hi)
      (fun c hc hk => by rw [(hval st hst c hc hk).2]; exact hi)
    rw [hcount] at h1
    refine ⟨cs', by rw [hcb]; exact h1, ?_⟩
    have e : ∀ c, nFullMesh (st.controls.take c) = nFullMesh (p.controls.take c) :=
      fun c => nFullMesh_take_congr hst.controls hst.kinds c
    simp only [e, hcount] at h2
    exact h2

end Verif.Transcription
