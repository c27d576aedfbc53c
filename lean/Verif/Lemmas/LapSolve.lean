import Verif.Props.Cost
import Verif.Spec.LapSolve

/-! Helper lemmas of the computed lap: the cost-function object forgets what it evaluated before,
what is exported is what it holds, constraints within bounds mean that the lap obeys. -/

set_option autoImplicit false
set_option linter.unusedSectionVars false

namespace Verif.Transcription

open Verif.Control

variable {K : Type*}

/-! ### What loading leaves alone -/

theorem loadInputs_kept (js : List Nat) : ∀ (row : Row K) (x : List K) (row' : Row K) (x' : List K),
    loadInputs js row x = .ok (row', x') → ∀ j, j ∉ js → row' j = row j := by
  induction js with
  | nil =>
    intro row x row' x' h j _
    simp only [loadInputs, Res.ok.injEq, Prod.mk.injEq] at h
    rw [h.1]
  | cons j js ih =>
    intro row x row' x' h j' hj'
    simp only [List.mem_cons, not_or] at hj'
    simp only [loadInputs, Res.bind_eq_ok] at h
    obtain ⟨ax, _, h⟩ := h
    rw [ih _ _ _ _ h j' hj'.2]
    exact Function.update_of_ne hj'.1 _ _

theorem loadRow_kept {v : Vehicle K} (hv : v.iTime + 1 < v.nInputs) {row row' : Row K} {x x' : List K}
    (h : loadRow v row x = .ok (row', x')) (j : Nat) (hj : j = v.iTime ∨ v.nInputs ≤ j) : row' j = row j := by
  simp only [loadRow, Res.bind_eq_ok] at h
  obtain ⟨rx, h1, h2⟩ := h
  rw [loadInputs_kept _ _ _ _ _ h2 j (by simp [List.mem_range'_1]; omega),
    loadInputs_kept _ _ _ rx.1 rx.2 h1 j (by simp; omega)]

theorem loadNodesWith_kept (f : Nat → List (CV K) → List K → Res (List (CV K) × List K)) {v : Vehicle K}
    (hv : v.iTime + 1 < v.nInputs) (is : List Nat) : ∀ (st : Loaded K) (x : List K) (st' : Loaded K) (x' : List K),
    loadNodesWith f v is st x = .ok (st', x') → ∀ (i : Nat) (row row' : Row K), st.inputs[i]? = some row →
      st'.inputs[i]? = some row' → ∀ j, (j = v.iTime ∨ v.nInputs ≤ j) → row' j = row j := by
  induction is with
  | nil =>
    intro st x st' x' h i row row' h1 h2 j _
    simp only [loadNodesWith, Res.ok.injEq, Prod.mk.injEq] at h
    rw [h.1, h2] at h1
    rw [Option.some.inj h1]
  | cons k is ih =>
    intro st x st' x' h i row row' h1 h2 j hj
    simp only [loadNodesWith, Res.bind_eq_ok, idx_eq_ok] at h
    obtain ⟨rk, hk, rx, hr, ins, hs, cx, _, h⟩ := h
    unfold setIdx at hs
    split at hs
    swap
    · simp at hs
    rename_i hlt
    obtain rfl := Res.ok.inj hs
    by_cases hik : i = k
    · subst hik
      rw [h1] at hk
      obtain rfl := Option.some.inj hk
      rw [ih _ _ _ _ h i rx.1 row' (by simp [hlt]) h2 j hj]
      exact loadRow_kept hv (x' := rx.2) hr j hj
    · exact ih _ _ _ _ h i row row' (by simp only [List.getElem?_set_ne (Ne.symm hik)]; exact h1) h2 j hj

theorem loadWith_kept {first : List (CV K) → Res (List (CV K))}
    {f : Nat → List (CV K) → List K → Res (List (CV K) × List K)} {v : Vehicle K}
    (hv : v.iTime + 1 < v.nInputs) {p : Problem K} {ini : Initial K} {st st' : Loaded K} {x x' : List K}
    (h : loadWith first f v p ini st x = .ok (st', x')) (i : Nat) (row row' : Row K) (hi : Optimised p i)
    (h1 : st.inputs[i]? = some row) (h2 : st'.inputs[i]? = some row') (j : Nat)
    (hj : j = v.iTime ∨ v.nInputs ≤ j) : row' j = row j := by
  simp only [loadWith, Res.bind_eq_ok] at h
  obtain ⟨st1, g1, sx, g2, cx, _, g3⟩ := h
  simp only [Res.ok.injEq, Prod.mk.injEq] at g3
  have hin : st1.inputs[i]? = some row := by
    cases hc : p.isClosed with
    | true =>
      rw [hc] at g1
      simp only [if_true, Res.ok.injEq] at g1
      rw [← g1]; exact h1
    | false =>
      rw [hc] at g1
      simp only [Bool.false_eq_true, if_false, Res.bind_eq_ok] at g1
      obtain ⟨ins, g4, cs, _, g5⟩ := g1
      unfold setIdx at g4
      split at g4
      swap
      · simp at g4
      obtain rfl := Res.ok.inj g4
      obtain rfl := Res.ok.inj g5
      have : i ≠ 0 := by
        have := hi.1
        rw [hc] at this
        simp [firstNode] at this
        omega
      simp only [List.getElem?_set_ne (Ne.symm this)]
      exact h1
  refine loadNodesWith_kept f hv _ _ _ sx.1 sx.2 g2 i row row' hin ?_ j hj
  rw [← g3.1] at h2
  exact h2

/-- Content left by evaluations of a new object: the entries of the optimised rows that loading does
not write are still zero. -/
structure Fresh [Zero K] (v : Vehicle K) (p : Problem K) (st : Loaded K) : Prop where
  fits : FitsProblem p st
  rows : ∀ (i : Nat) (row : Row K), Optimised p i → st.inputs[i]? = some row →
    ∀ j, (j = v.iTime ∨ v.nInputs ≤ j) → row j = 0

theorem fresh_initial [Field K] (v : Vehicle K) (p : Problem K) : Fresh v p (initialLoaded p) := by
  refine ⟨C01_fresh_fits p, ?_⟩
  intro i row _ hr j _
  simp only [initialLoaded, List.getElem?_replicate] at hr
  split at hr
  · rw [← Option.some.inj hr]
  · simp at hr

theorem not_optimised {p : Problem K} {i : Nat} (hi : i < p.nPoints) (hn : ¬ Optimised p i) :
    p.isClosed = false ∧ i = 0 := by
  unfold Optimised firstNode at hn
  cases hc : p.isClosed with
  | true => rw [hc] at hn; simp at hn; omega
  | false => rw [hc] at hn; simp at hn; exact ⟨rfl, by omega⟩

/-- Controls that fit the same problem and hold the same vector are equal. -/
theorem Decoded.determined {v : Vehicle K} {p : Problem K} (hp : Shape p) {ini ini' : Initial K}
    {st st' su su' : Loaded K} {x : List K} (h : Decoded v p ini st st' x) (g : Decoded v p ini' su su' x)
    (hc0 : p.isClosed = false → ∀ (c : Nat) (cv : CV K), p.controls[c]? = some cv → cv.kind = .fullMesh →
      (ini.controls[c]?).map Prod.fst = (ini'.controls[c]?).map Prod.fst ∧
      (p.isDirect = false → (ini.controls[c]?).map Prod.snd = (ini'.controls[c]?).map Prod.snd)) :
    st'.controls = su'.controls ∧ ∀ (i : Nat) (ra rb : Row K), Optimised p i → st'.inputs[i]? = some ra →
      su'.inputs[i]? = some rb → ∀ j, j < v.nInputs → j ≠ v.iTime → ra j = rb j := by
  constructor
  · apply list_eq_of_get (h.fits.controls.trans g.fits.controls.symm)
    intro c hc
    have hcv : p.controls[c]? = some (p.controls[c]'(by rw [← g.fits.controls]; exact hc)) :=
      List.getElem?_eq_getElem _
    generalize p.controls[c]'(by rw [← g.fits.controls]; exact hc) = cv at hcv
    obtain ⟨cw, hcw⟩ := exists_get_of_length h.fits.controls hcv
    obtain ⟨cx, hcx⟩ := exists_get_of_length g.fits.controls hcv
    rw [hcw, hcx]
    have hmem := List.mem_of_getElem? hcv
    have hf := h.fits.frames c cv cw hcv hcw
    have gf := g.fits.frames c cv cx hcv hcx
    congr 1
    refine CV_ext (hf.kind.trans gf.kind.symm) (hf.mesh.trans gf.mesh.symm) ?_ ?_ (hf.diss.trans gf.diss.symm)
    · apply list_eq_of_get (hf.nValues.trans gf.nValues.symm)
      intro k hk
      rw [gf.nValues] at hk
      by_cases k1 : cv.kind = .fullMesh
      · rw [hp.values cv hmem k1] at hk
        by_cases ho : Optimised p k
        · obtain ⟨a, a1, a2⟩ := h.holds.full k c cw ho hcw (hf.kind.trans k1)
          obtain ⟨b, b1, b2⟩ := g.holds.full k c cx ho hcx (gf.kind.trans k1)
          rw [a1, b1, ← a2, ← b2]
        · obtain ⟨hcl, rfl⟩ := not_optimised hk ho
          rw [(h.firstControls hcl c cw hcw (hf.kind.trans k1)).1,
            (g.firstControls hcl c cx hcx (gf.kind.trans k1)).1, (hc0 hcl c cv hcv k1).1]
      · by_cases k2 : cv.kind = .constant ∨ cv.kind = .hypermesh
        · obtain ⟨a, a1, a2⟩ := h.holds.other c k cw hcw (by rw [hf.kind]; exact k2)
            (by rw [hf.nValues]; exact hk)
          obtain ⟨b, b1, b2⟩ := g.holds.other c k cx hcx (by rw [gf.kind]; exact k2)
            (by rw [gf.nValues]; exact hk)
          rw [a1, b1, ← a2, ← b2]
        · rw [not_or] at k2
          rw [hp.idle cv hmem k2.1 k2.2 k1] at hk
          simp at hk
    · apply list_eq_of_get (hf.nRates.trans gf.nRates.symm)
      intro k hk
      rw [gf.nRates] at hk
      by_cases k1 : cv.kind = .fullMesh
      · rw [hp.rates cv hmem k1] at hk
        cases hd : p.isDirect with
        | true => simp [hd] at hk
        | false =>
          simp [hd] at hk
          by_cases ho : Optimised p k
          · obtain ⟨a, a1, a2⟩ := h.holds.rates hd k c cw ho hcw (hf.kind.trans k1)
            obtain ⟨b, b1, b2⟩ := g.holds.rates hd k c cx ho hcx (gf.kind.trans k1)
            rw [a1, b1, ← a2, ← b2]
          · obtain ⟨hcl, rfl⟩ := not_optimised hk ho
            rw [(h.firstControls hcl c cw hcw (hf.kind.trans k1)).2 hd,
              (g.firstControls hcl c cx hcx (gf.kind.trans k1)).2 hd, (hc0 hcl c cv hcv k1).2 hd]
      · rw [hp.noRates cv hmem k1] at hk
        simp at hk
  · intro i ra rb ho hra hrb j hj ht
    have e1 := h.holds.inputs i j ra ho hj ht hra
    have e2 := g.holds.inputs i j rb ho hj ht hrb
    rw [e1] at e2
    simpa using e2

section
variable [Field K] [LinearOrder K]

theorem fgOf_eq (v : Vehicle K) (p : Problem K) (ini : Initial K) (st : Loaded K) (x : List K) :
    fgOf v p ini st x = (loadOf v p ini st x).bind fun sx =>
      (evaluateOf v p (withIntegrals p) sx.1).bind fun e => (fillFg v p e).bind fun fg => .ok (fg, sx.1) := by
  unfold fgOf loadOf evaluateOf
  cases p.isDirect <;> rfl

namespace Run

variable {lowest max : K} {v : Vehicle K} {r : Request K} {p : Problem K} {ini : Initial K}

theorem load (h : Run lowest max v r p ini) {st : Loaded K} (hst : FitsProblem p st) {x : List K}
    (hx : x.length = nVariables v p) :
    ∃ st', loadOf v p ini st x = .ok (st', []) ∧ Decoded v p ini st st' x := by
  unfold loadOf
  cases hd : p.isDirect with
  | true => exact loadDirect_decoded v h.wf.lateral p h.shape hd ini h.iniLength st hst x hx
  | false => exact loadDerivative_decoded v h.wf.lateral p h.shape hd ini h.iniLength st hst x hx

theorem load_fresh (h : Run lowest max v r p ini) {st : Loaded K} (hst : Fresh v p st) {x : List K}
    (hx : x.length = nVariables v p) :
    ∃ st', loadOf v p ini st x = .ok (st', []) ∧ Decoded v p ini st st' x ∧ Fresh v p st' := by
  obtain ⟨st', h1, h2⟩ := h.load hst.fits hx
  refine ⟨st', h1, h2, h2.fits, ?_⟩
  intro i row' hi hr' j hj
  obtain ⟨row, hr⟩ : ∃ row, st.inputs[i]? = some row :=
    ⟨_, List.getElem?_eq_getElem (by rw [hst.fits.inputs]; exact hi.2)⟩
  rw [← hst.rows i row hi hr j hj]
  unfold loadOf at h1
  cases hd : p.isDirect with
  | true =>
    rw [hd, if_pos rfl, loadDirect_with] at h1
    exact loadWith_kept h.wf.lateral h1 i row row' hi hr hr' j hj
  | false =>
    rw [hd, if_neg (by simp), loadDerivative_with] at h1
    exact loadWith_kept h.wf.lateral h1 i row row' hi hr hr' j hj

theorem load_same (h : Run lowest max v r p ini) {st su : Loaded K} (hst : Fresh v p st) (hsu : Fresh v p su)
    {x : List K} (hx : x.length = nVariables v p) : loadOf v p ini st x = loadOf v p ini su x := by
  obtain ⟨st', h1, h2, h3⟩ := h.load_fresh hst hx
  obtain ⟨su', g1, g2, g3⟩ := h.load_fresh hsu hx
  obtain ⟨d1, d2⟩ := h2.determined h.shape g2 (fun _ _ _ _ _ => ⟨rfl, fun _ => rfl⟩)
  rw [h1, g1]
  have hin : st'.inputs = su'.inputs := by
    apply list_eq_of_get (h2.fits.inputs.trans g2.fits.inputs.symm)
    intro i hi
    have hi1 : i < p.nPoints := by rw [← g2.fits.inputs]; exact hi
    have e1 : st'.inputs[i]? = some (st'.inputs[i]'(by rw [h2.fits.inputs]; exact hi1)) := List.getElem?_eq_getElem _
    have e2 : su'.inputs[i]? = some su'.inputs[i] := List.getElem?_eq_getElem hi
    by_cases ho : Optimised p i
    · rw [e1, e2]
      congr 1
      funext j
      by_cases hj : j = v.iTime ∨ v.nInputs ≤ j
      · rw [h3.rows i _ ho e1 j hj, g3.rows i _ ho e2 j hj]
      · rw [not_or] at hj
        exact d2 i _ _ ho e1 e2 j (by omega) hj.1
    · obtain ⟨hcl, rfl⟩ := not_optimised hi1 ho
      rw [h2.firstInputs hcl, g2.firstInputs hcl]
  have : st' = su' := by
    cases st'; cases su'
    simp only [Loaded.mk.injEq]
    exact ⟨hin, d1⟩
  rw [this]

/-- Value of the cost function, in one statement for both forms. -/
theorem value (h : Run lowest max v r p ini) {st : Loaded K} (hst : FitsProblem p st) {x : List K}
    (hx : x.length = nVariables v p) :
    ∃ (st' : Loaded K) (node : Nat → Node K) (c : List K),
      fgOf v p ini st x = .ok ((lapDuration v p node + smoothing v p node st'.controls) :: c, st') ∧
      Decoded v p ini st st' x ∧ EvaluatedNodes v p st' node ∧
      RowsAre v p st'.controls node (codedIntegral v p node) c := by
  unfold fgOf lapDuration smoothing
  cases hd : p.isDirect with
  | true =>
    obtain ⟨st', node, c, h1, h2, h3, h4, h5⟩ := h.direct (h.isDirect.symm.trans hd) st hst x hx
    exact ⟨st', node, c, h1, h2, h4, h5⟩
  | false =>
    obtain ⟨st', node, c, h1, h2, h3, h4, h5⟩ := h.derivative (h.isDirect.symm.trans hd) st hst x hx
    exact ⟨st', node, c, h1, h2, h4, h5⟩

/-- Evaluation with all integral quantities. -/
theorem evaluate (h : Run lowest max v r p ini) {st : Loaded K} (hst : FitsProblem p st) {node : Nat → Node K}
    (hn : EvaluatedNodes v p st node) :
    ∃ c, evaluateOf v p true st = .ok ⟨lapDuration v p node + smoothing v p node st.controls, c,
        (List.range p.quantities.length).map (codedIntegral v p node)⟩ ∧
      RowsAre v p st.controls node (codedIntegral v p node) c := by
  have hev := evalNodes_eq h.shape h.consistent h.defaults h.covers hst hn
  unfold evaluateOf lapDuration smoothing
  cases hd : p.isDirect with
  | true => exact evaluateDirect_ok h.wf.equations h.shape hd hst hev hn true (Or.inl rfl)
  | false => exact evaluateDerivative_ok h.wf.equations h.shape hd hst hev hn true (Or.inl rfl)

theorem visitAll_fresh (h : Run lowest max v r p ini) : ∀ (xs : List (List K)) (st : Loaded K), Fresh v p st →
    (∀ y ∈ xs, y.length = nVariables v p) → ∃ st', visitAll v p ini xs st = .ok st' ∧ Fresh v p st' := by
  intro xs
  induction xs with
  | nil => intro st hst _; exact ⟨st, rfl, hst⟩
  | cons x xs ih =>
    intro st hst hx
    obtain ⟨st1, node, c, h1, h2, _⟩ := h.value hst.fits (hx x (by simp))
    obtain ⟨st2, g1, _, g3⟩ := h.load_fresh hst (hx x (by simp))
    have : st1 = st2 := by
      rw [fgOf_eq, g1] at h1
      simp only [Res.bind_ok, Res.bind_eq_ok] at h1
      obtain ⟨e, _, fg, _, h1⟩ := h1
      simp only [Res.ok.injEq, Prod.mk.injEq] at h1
      exact h1.2.symm
    subst this
    obtain ⟨st', i1, i2⟩ := ih st1 g3 (fun y hy => hx y (List.mem_cons_of_mem _ hy))
    exact ⟨st', by rw [visitAll, h1]; exact i1, i2⟩

end Run

/-! ### What is exported -/

theorem mapRes_idx_self {α : Type*} (l : List α) : mapRes (idx l) (List.range l.length) = .ok l := by
  have h : ∀ (n k : Nat), k + n = l.length → mapRes (idx l) (List.range' k n) = .ok (l.drop k) := by
    intro n
    induction n with
    | zero =>
      intro k hk
      simp only [List.range'_zero, mapRes]
      rw [List.drop_eq_nil_of_le (by omega)]
    | succ n ih =>
      intro k hk
      have hlt : k < l.length := by omega
      rw [List.range'_succ, mapRes, idx_of_lt hlt, ih (k + 1) (by omega)]
      simp only [Res.bind_ok]
      rw [← List.drop_eq_getElem_cons hlt]
  have := h l.length 0 (by omega)
  rw [List.range_eq_range', this, List.drop_zero]

theorem copyInto_same {own new : List K} (h : new.length = own.length) : copyInto own new = .ok new := by
  rw [copyInto, if_pos (le_of_eq h), h, List.drop_length, List.append_nil]

theorem exportControl_same {p : Problem K} (hp : Shape p) {cv new : CV K} (hm : cv ∈ p.controls)
    (hf : SameFrame cv new) : exportControl (clearOne cv) new = .ok new := by
  have hv : new.controls.length = (clearOne cv).controls.length := by simp [clearOne, hf.nValues]
  have hr : new.dcontrolsDt.length = (clearOne cv).dcontrolsDt.length := by simp [clearOne, hf.nRates]
  have nil : ∀ {l l' : List K}, l'.length = l.length → l = [] → l' = [] := by
    intro l l' hl hn; subst hn; simpa using hl
  have hkk : (clearOne cv).kind = cv.kind := rfl
  have hnr : cv.kind ≠ .fullMesh → new.dcontrolsDt = [] ∧ (clearOne cv).dcontrolsDt = [] := by
    intro hk
    have := hp.noRates cv hm hk
    exact ⟨nil hf.nRates this, by simp [clearOne, this]⟩
  have hkn : cv.kind = new.kind := hf.kind.symm
  have idle : cv.kind ≠ .constant → cv.kind ≠ .hypermesh → cv.kind ≠ .fullMesh → clearOne cv = new := by
    intro k1 k2 k3
    have hi := hp.idle cv hm k1 k2 k3
    exact CV_ext hkn hf.mesh.symm (by rw [nil hf.nValues hi]; simp [clearOne, hi])
      (by rw [(hnr k3).1, (hnr k3).2]) hf.diss.symm
  unfold exportControl
  cases hk : cv.kind with
  | constant =>
    simp only [hkk, hk, copyInto_same hv, Res.bind_ok]
    congr 1
    exact CV_ext (hk ▸ hkn) hf.mesh.symm rfl (by rw [(hnr (by simp [hk])).1, (hnr (by simp [hk])).2]) hf.diss.symm
  | hypermesh =>
    simp only [hkk, hk, copyInto_same hv, Res.bind_ok]
    congr 1
    exact CV_ext (hk ▸ hkn) hf.mesh.symm rfl (by rw [(hnr (by simp [hk])).1, (hnr (by simp [hk])).2]) hf.diss.symm
  | fullMesh =>
    simp only [hkk, hk, copyInto_same hv, copyInto_same hr, Res.bind_ok]
    congr 1
    exact CV_ext (hk ▸ hkn) hf.mesh.symm rfl rfl hf.diss.symm
  | dontOptimize =>
    simp only [hkk, hk]
    rw [idle (by simp [hk]) (by simp [hk]) (by simp [hk])]
  | unknown =>
    simp only [hkk, hk]
    rw [idle (by simp [hk]) (by simp [hk]) (by simp [hk])]

theorem exportControls_same {p : Problem K} (hp : Shape p) {st : Loaded K} (hst : FitsProblem p st) :
    exportControls (clear p.controls) st.controls = .ok st.controls := by
  have h : ∀ (cs ds : List (CV K)), ds.length = cs.length → (∀ c ∈ cs, c ∈ p.controls) →
      (∀ (c : Nat) (a b : CV K), cs[c]? = some a → ds[c]? = some b → SameFrame a b) →
      exportControls (clear cs) ds = .ok ds := by
    intro cs
    induction cs with
    | nil =>
      intro ds hl _ _
      obtain rfl := List.eq_nil_of_length_eq_zero hl
      rfl
    | cons c cs ih =>
      intro ds hl hm hf
      match ds, hl with
      | d :: ds, hl =>
        have := ih ds (by simpa using hl) (fun e he => hm e (List.mem_cons_of_mem _ he))
          (fun k a b ha hb => hf (k + 1) a b (by simpa using ha) (by simpa using hb))
        simp only [clear, List.map_cons, exportControls] at this ⊢
        rw [exportControl_same hp (hm c (by simp)) (hf 0 c d rfl rfl), Res.bind_ok, this]
        rfl
  exact h _ _ hst.controls (fun c hc => hc) hst.frames

end

end Verif.Transcription
