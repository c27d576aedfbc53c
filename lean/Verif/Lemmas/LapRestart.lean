import Verif.Lemmas.LapFinish

/-! Helper lemmas of the computed lap: other laps as vectors, and the warm start from a lap. -/

set_option autoImplicit false
set_option linter.unusedSectionVars false

namespace Verif.Transcription

open Verif.Control

variable {K : Type*}

/-! ### A lap as a vector -/

theorem FitsProblem.rates {v : Vehicle K} {p : Problem K} {st : Loaded K} (h : FitsProblem p st)
    (hr : v.RatesBounded p.controls ∧ ∀ c ∈ p.controls, c.kind ≠ .constant) :
    v.RatesBounded st.controls ∧ ∀ c ∈ st.controls, c.kind ≠ .constant := by
  refine ⟨?_, ?_⟩
  · intro c cv hcv hk
    obtain ⟨cw, hcw⟩ := exists_get_of_length h.controls.symm hcv
    exact hr.1 c cw hcw ((h.kinds c cw cv hcw hcv).symm.trans hk)
  · intro c hc hk
    obtain ⟨cw, hm, hf⟩ := h.mem hc
    exact hr.2 cw hm (hf.kind.symm.trans hk)

theorem Holds.sameInputs {v : Vehicle K} {p : Problem K} {a b : List (Row K)} (hlen : b.length = a.length)
    (hs : SameInputsButTime v (fun _ => True) a b) {controls : List (CV K)} {x : List K}
    (h : Holds v p a controls x) : Holds v p b controls x := by
  refine ⟨?_, h.full, h.rates, h.other⟩
  intro i j row hi hj ht hr
  obtain ⟨row', hr'⟩ := exists_get_of_length hlen.symm hr
  rw [← hs i row' row trivial hr' hr j hj ht]
  exact h.inputs i j row' hi hj ht hr'

section
variable [Field K] [LinearOrder K]

theorem exists_vector {v : Vehicle K} (hv : v.iTime + 1 < v.nInputs) {p : Problem K} (hp : Shape p)
    (hr : p.isDirect = false → v.RatesBounded p.controls ∧ ∀ c ∈ p.controls, c.kind ≠ .constant) {st : Loaded K}
    (h : FitsProblem p st) : ∃ y : List K, y.length = nVariables v p ∧ Holds v p st.inputs st.controls y := by
  obtain ⟨es, h1⟩ := packOf_ok (v := v) (p := { p with inputs := st.inputs, controls := st.controls }) hv
    (hp.replace h) 0 0 (fun hd => h.rates (hr hd))
  have h2 := (packOf_layout hv (hp.replace h) h1).1
  refine ⟨es.map Entry.start, ?_, (h2.holds (hp.replace h)).replace h⟩
  rw [List.length_map, h2.length]
  rfl

/-- A lap decodes the vector that holds it, with its own start. -/
theorem Decoded.self {v : Vehicle K} {p : Problem K} (hp : Shape p) {st : Loaded K} (h : FitsProblem p st)
    {y : List K} (hy : Holds v p st.inputs st.controls y) {row : Row K} (h0 : st.inputs[0]? = some row) :
    Decoded v p ⟨row, st.controls.map fun c => (c.controls.headD 0, c.dcontrolsDt.headD 0)⟩ st st y := by
  have htwo := hp.two
  have head : ∀ l : List K, 0 < l.length → l[0]? = some (l.headD 0) := by
    intro l hl
    match l, hl with
    | a :: l, _ => rfl
  refine ⟨h, hy, ?_, fun _ => h0, ?_, ?_⟩
  · intro i ra rb _ h1 h2
    rw [h1] at h2
    rw [Option.some.inj h2]
  · intro _ c cv hc hk
    obtain ⟨cw, hcw⟩ := exists_get_of_length h.controls.symm hc
    have hm := List.mem_of_getElem? hcw
    have hf := h.frames c cw cv hcw hc
    have hkw := hf.kind.symm.trans hk
    simp only [List.getElem?_map, hc, Option.map_some]
    refine ⟨head _ (by rw [hf.nValues, hp.values cw hm hkw]; omega), fun hd => head _ ?_⟩
    rw [hf.nRates, hp.rates cw hm hkw, hd]
    simp; omega
  · intro c cv cv' h1 h2 _ _ _
    rw [h1] at h2
    exact (Option.some.inj h2).symm

/-- What loading makes of the vector of a lap with the start of the problem: that lap but for the
times. -/
theorem Run.load_lap {lowest max : K} {v : Vehicle K} {r : Request K} {p : Problem K} {ini : Initial K}
    (h : Run lowest max v r p ini) {ins : List (Row K)} {ctrls : List (CV K)} (hf : FitsProblem p ⟨ins, ctrls⟩)
    (hs : p.isClosed = false → SameStart v p ins ctrls) {y : List K} (hyl : y.length = nVariables v p)
    (hy : Holds v p ins ctrls y) :
    ∃ st', loadOf v p ini (initialLoaded p) y = .ok (st', []) ∧ Fresh v p st' ∧ st'.controls = ctrls ∧
      SameInputsButTime v (fun _ => True) ins st'.inputs := by
  obtain ⟨st', h1, h2, h3⟩ := h.load_fresh (fresh_initial v p) hyl
  obtain ⟨row0, h0⟩ := h.row0 hf
  obtain ⟨i1, i2⟩ := h.initial_spec
  have hself := Decoded.self h.shape hf hy h0
  have htwo := h.shape.two
  have head : ∀ l : List K, 0 < l.length → l[0]? = some (l.headD 0) := by
    intro l hl
    match l, hl with
    | a :: l, _ => rfl
  obtain ⟨d1, d2⟩ := h2.determined h.shape hself (by
    intro hcl c cv hcv hk
    obtain ⟨cw, hcw⟩ := exists_get_of_length hf.controls hcv
    have hcw' : ctrls[c]? = some cw := hcw
    have hfr := hf.frames c cv cw hcv hcw
    have hm := List.mem_of_getElem? hcv
    obtain ⟨e1, e2⟩ := (hs hcl).2 c cw cv hcw hcv hk
    simp only [List.getElem?_map, hcw', Option.map_some]
    refine ⟨?_, fun hd => ?_⟩
    · rw [(i2 c cv hcv hk).1, ← e1]
      exact head _ (by rw [hfr.nValues, h.shape.values cv hm hk]; omega)
    · rw [(i2 c cv hcv hk).2 hd, ← e2]
      exact head _ (by rw [hfr.nRates, h.shape.rates cv hm hk, hd]; simp; omega))
  refine ⟨st', h1, h3, d1, ?_⟩
  intro i ra rb _ hra hrb j hj ht
  by_cases ho : Optimised p i
  · exact (d2 i rb ra ho hrb hra j hj ht).symm
  · have hi : i < p.nPoints := by
      rw [← h3.fits.inputs]; exact (List.getElem?_eq_some_iff.1 hrb).1
    obtain ⟨hcl, rfl⟩ := not_optimised hi ho
    rw [h2.firstInputs hcl] at hrb
    obtain rfl := Option.some.inj hrb
    exact (hs hcl).1 ra ini.inputs hra i1 j hj ht

/-! ### Uniqueness -/

theorem list_eq_of_lt {α : Type*} {l l' : List α} {n : Nat} (h : l.length = n) (h' : l'.length = n)
    (hk : ∀ k, k < n → l[k]? = l'[k]?) : l = l' :=
  list_eq_of_get (h.trans h'.symm) (fun k hk' => hk k (by omega))

theorem RowsAre.unique {v : Vehicle K} (heq : v.timeIds.length + v.algIds.length = v.nInputs - 1) {p : Problem K}
    {controls : List (CV K)} (hcl : controls.length = p.controls.length)
    (hk : ∀ (c : Nat) (a b : CV K), p.controls[c]? = some a → controls[c]? = some b → b.kind = a.kind)
    {node : Nat → Node K} {value : Nat → K} {c c' : List K} (h : RowsAre v p controls node value c)
    (g : RowsAre v p controls node value c') : c = c' := by
  apply list_eq_of_lt h.size g.size
  intro k hlt
  rcases row_cases heq hlt with
      ⟨e, t, q, he, hq, rfl⟩ | ⟨e, t, q, he, hq, rfl⟩ | ⟨e, t, he, ht, rfl⟩ | ⟨hd, e, j, cv, he, hcv, hkv, rfl⟩ |
      ⟨t, q, hq, hr, rfl⟩
  · rw [h.time e t q he hq, g.time e t q he hq]
  · rw [h.algebraic e t q he hq, g.algebraic e t q he hq]
  · rw [h.extra e t he ht, g.extra e t he ht]
  · obtain ⟨cw, hcw⟩ := exists_get_of_length hcl hcv
    have hkw := (hk j cv cw hcv hcw).trans hkv
    rw [← nFullMesh_take_congr hcl hk j, h.control hd e j cw he hcw hkw, g.control hd e j cw he hcw hkw]
  · rw [h.quantities t q hq hr, g.quantities t q hq hr]

/-! ### The problem of a restart -/

/-- Problem `p` with other data and multipliers. -/
def withData (p : Problem K) (ins : List (Row K)) (ctrls : List (CV K)) (w : Option (List K × List K × List K)) :
    Problem K := { p with inputs := ins, controls := ctrls, warm := w }

theorem clear_congr {cs ds : List (CV K)} (hl : ds.length = cs.length)
    (hf : ∀ (c : Nat) (a b : CV K), cs[c]? = some a → ds[c]? = some b → SameFrame a b) : clear ds = clear cs := by
  apply list_eq_of_get (by simp [clear, hl])
  intro k hk
  simp only [clear, List.length_map] at hk
  have e1 : cs[k]? = some cs[k] := List.getElem?_eq_getElem hk
  have e2 : ds[k]? = some (ds[k]'(by omega)) := List.getElem?_eq_getElem _
  simp only [clear, List.getElem?_map, e1, e2, Option.map_some]
  have := hf k _ _ e1 e2
  congr 1
  simp only [clearOne, this.kind, this.mesh, this.diss, List.map_const', this.nValues, this.nRates]

theorem controlRowBounds_congr : ∀ {cs ds : List (CV K)}, ds.length = cs.length →
    (∀ (c : Nat) (a b : CV K), cs[c]? = some a → ds[c]? = some b → b.kind = a.kind) →
    controlRowBounds ds = controlRowBounds cs := by
  intro cs
  induction cs with
  | nil =>
    intro ds hl _
    obtain rfl := List.eq_nil_of_length_eq_zero hl
    rfl
  | cons c cs ih =>
    intro ds hl hk
    match ds, hl with
    | d :: ds, hl =>
      rw [controlRowBounds, controlRowBounds, hk 0 c d rfl rfl,
        ih (by simpa using hl) (fun k a b ha hb => hk (k + 1) a b (by simpa using ha) (by simpa using hb))]

section data
variable {v : Vehicle K} {p : Problem K} {st : Loaded K} (h : FitsProblem p st)
    (w : Option (List K × List K × List K))
include h

theorem withData_shape (hp : Shape p) : Shape (withData p st.inputs st.controls w) := by
  have := hp.replace h
  exact ⟨this.two, this.s, this.inputs, this.elements, this.const1, this.values, this.rates, this.noRates, this.idle,
    this.consistent, this.full, this.other⟩

theorem withData_fits {su : Loaded K} (hs : FitsProblem (withData p st.inputs st.controls w) su) :
    FitsProblem p su := by
  refine ⟨hs.inputs, hs.controls.trans h.controls, ?_⟩
  intro c cv cv' h1 h2
  obtain ⟨cw, hcw⟩ := exists_get_of_length h.controls h1
  have f1 := h.frames c cv cw h1 hcw
  have f2 := hs.frames c cw cv' hcw h2
  exact ⟨f2.kind.trans f1.kind, f2.mesh.trans f1.mesh, f2.diss.trans f1.diss, f2.nValues.trans f1.nValues,
    f2.nRates.trans f1.nRates⟩

theorem withData_initial : initialLoaded (withData p st.inputs st.controls w) = initialLoaded p := by
  simp only [initialLoaded, withData, clear_congr h.controls h.frames]

theorem withData_bounds : constraintBounds v (withData p st.inputs st.controls w) = constraintBounds v p := by
  have := controlRowBounds_congr h.controls h.kinds
  simp only [constraintBounds, emitBounds, withData, nConstraints, this]
  rfl

theorem withData_holds {ins : List (Row K)} {ctrls : List (CV K)} {x : List K}
    (hx : Holds v (withData p st.inputs st.controls w) ins ctrls x) : Holds v p ins ctrls x :=
  Holds.replace h ⟨hx.inputs, hx.full, hx.rates, hx.other⟩

theorem withData_rows {ctrls : List (CV K)} {node : Nat → Node K} {value : Nat → K} {c : List K}
    (hx : RowsAre v (withData p st.inputs st.controls w) ctrls node value c) :
    RowsAre v p ctrls node value c := by
  have e1 : rowsPerElement v (withData p st.inputs st.controls w) = rowsPerElement v p := by
    have : nFullMesh st.controls = nFullMesh p.controls := nFullMesh_congr _ _ h.controls.symm h.kinds
    simp only [rowsPerElement, withData, this]
  refine ⟨?_, ?_, ?_, ?_, ?_, ?_⟩
  · rw [← e1]; exact hx.size
  · intro e k q he hq; rw [← e1]; exact hx.time e k q he hq
  · intro e k q he hq; rw [← e1]; exact hx.algebraic e k q he hq
  · intro e k he hq; rw [← e1]; exact hx.extra e k he hq
  · intro hd e j cv he hc hk; rw [← e1]; exact hx.control hd e j cv he hc hk
  · intro k q hq hr; rw [← e1]; exact hx.quantities k q hq hr

theorem withData_layout (hp : Shape p) {es es' : List (Entry K)} (hl : Layout v p es)
    (hl' : Layout v (withData p st.inputs st.controls w) es') :
    (es'.map fun e => (e.lb, e.ub)) = es.map fun e => (e.lb, e.ub) := by
  have e1 : nFullMesh st.controls = nFullMesh p.controls := nFullMesh_congr _ _ h.controls.symm h.kinds
  have e2 : ∀ c, nFullMesh (st.controls.take c) = nFullMesh (p.controls.take c) :=
    fun c => nFullMesh_take_congr h.controls h.kinds c
  have e3 : ∀ c, nOther (st.controls.take c) = nOther (p.controls.take c) :=
    fun c => nOther_take_congr h.controls (fun c a b ha hb =>
      ⟨(h.frames c a b ha hb).kind, (h.frames c a b ha hb).nValues⟩) c
  have e4 : blockSize v p.isDirect st.controls = blockSize v p.isDirect p.controls := by
    simp only [blockSize, e1]
  apply list_eq_of_lt (n := nVariables v p) (by rw [List.length_map]; exact hl'.length)
    (by rw [List.length_map]; exact hl.length)
  intro k hk
  rcases position_cases (v := v) hp hk with ⟨i, j, hi, hj, ht, rfl⟩ | ⟨i, c, cv, hi, hcv, hkk, rfl⟩ |
    ⟨hd, i, c, cv, hi, hcv, hkk, rfl⟩ | ⟨c, q, cv, hcv, hkk, hq, rfl⟩
  · obtain ⟨si, hs⟩ : ∃ si, p.s[i]? = some si := ⟨_, List.getElem?_eq_getElem (by rw [hp.s]; exact hi.2)⟩
    obtain ⟨ra, hra⟩ : ∃ ra, p.inputs[i]? = some ra := ⟨_, List.getElem?_eq_getElem (by rw [hp.inputs]; exact hi.2)⟩
    obtain ⟨rb, hrb⟩ : ∃ rb, st.inputs[i]? = some rb := ⟨_, List.getElem?_eq_getElem (by rw [h.inputs]; exact hi.2)⟩
    have h1 := hl.inputs i j ra si hi hj ht hra hs
    have h2 := hl'.inputs i j rb si hi hj ht hrb hs
    have e : inputPos v (withData p st.inputs st.controls w) i j = inputPos v p i j := by
      simp only [inputPos, blockStart, withData, e4]
    rw [e] at h2
    simp only [List.getElem?_map, h1, h2, Option.map_some]
    rfl
  · obtain ⟨cw, hcw⟩ := exists_get_of_length h.controls hcv
    obtain ⟨a, _, h1⟩ := hl.full i c cv hi hcv hkk
    obtain ⟨b, _, h2⟩ := hl'.full i c cw hi hcw ((h.kinds c cv cw hcv hcw).trans hkk)
    have e : fullPos v (withData p st.inputs st.controls w) i c = fullPos v p i c := by
      simp only [fullPos, blockStart, withData, e4, e2]
    rw [e] at h2
    simp only [List.getElem?_map, h1, h2, Option.map_some]
    rfl
  · obtain ⟨cw, hcw⟩ := exists_get_of_length h.controls hcv
    obtain ⟨a, l, u, _, a1, a2, h1⟩ := hl.rates hd i c cv hi hcv hkk
    obtain ⟨b, l', u', _, b1, b2, h2⟩ := hl'.rates hd i c cw hi hcw ((h.kinds c cv cw hcv hcw).trans hkk)
    have e : ratePos v (withData p st.inputs st.controls w) i c = ratePos v p i c := by
      simp only [ratePos, blockStart, withData, e4, e2, e1]
    rw [e] at h2
    rw [a1] at b1
    rw [a2] at b2
    obtain rfl := Option.some.inj b1
    obtain rfl := Option.some.inj b2
    simp only [List.getElem?_map, h1, h2, Option.map_some]
  · obtain ⟨cw, hcw⟩ := exists_get_of_length h.controls hcv
    have hf := h.frames c cv cw hcv hcw
    obtain ⟨a, _, h1⟩ := hl.other c q cv hcv hkk hq
    obtain ⟨b, _, h2⟩ := hl'.other c q cw hcw (by rw [hf.kind]; exact hkk) (by rw [hf.nValues]; exact hq)
    have e : otherPos v (withData p st.inputs st.controls w) c q = otherPos v p c q := by
      simp only [otherPos, withData, e4, e3]
    rw [e] at h2
    simp only [List.getElem?_map, h1, h2, Option.map_some]
    rfl

end data

/-! ### The request of a restart -/

theorem prepare_quantities {lowest max : K} {v : Vehicle K} {r : Request K} {p : Problem K}
    (h : prepare lowest max v r = .ok p) : setQuantities v.integralNames r.opts.integral
      (v.integralNames.map fun _ => ⟨0, false, lowest, max⟩) = .ok p.quantities := by
  simp only [prepare, Res.bind_eq_ok] at h
  obtain ⟨cst, _, p', h1, h2⟩ := h
  split at h2
  swap
  · simp at h2
  obtain rfl := Res.ok.inj h2
  simp only [checkInputs] at h1
  split at h1
  · simp at h1
  simp only [Res.bind_eq_ok] at h1
  obtain ⟨s0, _, s1, _, h1⟩ := h1
  repeat' split at h1
  all_goals first
    | (simp at h1; done)
    | (simp only [Res.bind_eq_ok] at h1
       obtain ⟨_, _, qs, h3, h4⟩ := h1
       obtain rfl := Res.ok.inj h4
       exact h3)

theorem stats_congr {cs ds : List (CV K)} (h : ds.map (fun c => (c.kind, c.sHypermesh)) =
    cs.map fun c => (c.kind, c.sHypermesh)) :
    ds.countP (fun c => c.kind = .constant) = cs.countP (fun c => c.kind = .constant) ∧
    ((ds.filter (fun c => c.kind = .hypermesh)).map (fun c => c.sHypermesh.length)).sum =
      ((cs.filter (fun c => c.kind = .hypermesh)).map (fun c => c.sHypermesh.length)).sum ∧
    ds.countP (fun c => c.kind = .fullMesh) = cs.countP (fun c => c.kind = .fullMesh) := by
  have e : ∀ (k : Kind) (l : List (CV K)), l.countP (fun c => c.kind = k) =
      (l.map fun c => (c.kind, c.sHypermesh)).countP fun x => x.1 = k := by
    intro k l
    rw [List.countP_map]; rfl
  have f : ∀ l : List (CV K), (l.filter (fun c => c.kind = .hypermesh)).map (fun c => c.sHypermesh.length) =
      ((l.map fun c => (c.kind, c.sHypermesh)).filter fun x => x.1 = .hypermesh).map fun x => x.2.length := by
    intro l
    rw [List.filter_map, List.map_map]; rfl
  exact ⟨by rw [e, e, h], by rw [f, f, h], by rw [e, e, h]⟩

theorem frames_map {p : Problem K} {st : Loaded K} (h : FitsProblem p st) :
    st.controls.map (fun c => (c.kind, c.sHypermesh)) = p.controls.map fun c => (c.kind, c.sHypermesh) := by
  apply list_eq_of_get (by simp [h.controls])
  intro k hk
  simp only [List.length_map] at hk
  have e1 : p.controls[k]? = some p.controls[k] := List.getElem?_eq_getElem hk
  have e2 : st.controls[k]? = some (st.controls[k]'(by rw [h.controls]; exact hk)) := List.getElem?_eq_getElem _
  have := h.frames k _ _ e1 e2
  simp only [List.getElem?_map, e1, e2, Option.map_some, this.kind, this.mesh]

theorem restart_prepare [IsStrictOrderedRing K] {lowest max : K} {v : Vehicle K} {r : Request K} {p : Problem K}
    (hp : prepare lowest max v r = .ok p) {st : Loaded K} (h : FitsProblem p st)
    (w : Option (List K × List K × List K)) (o : Options K) (ho : o.integral = r.opts.integral) :
    prepare lowest max v ⟨p.s, p.isClosed, p.isDirect, st.inputs, st.controls, w, o⟩ =
      .ok (withData { p with opts := o } st.inputs st.controls w) := by
  obtain ⟨ha, hg⟩ := prepare_ok hp
  have hs := prepare_shape hp
  have hcon := prepare_consistent hp
  have hmean : st.controls.map meaningful = st.controls := by
    conv_rhs => rw [← List.map_id st.controls]
    apply List.map_congr_left
    intro c hc
    obtain ⟨d, hd, hf⟩ := h.mem hc
    rw [hg.controls] at hd
    obtain ⟨d', _, rfl⟩ := List.mem_map.1 hd
    refine CV_ext rfl rfl rfl rfl ?_
    simp only [meaningful, id]
    split
    · rfl
    · rename_i hk
      rw [hf.diss]
      rw [hf.kind] at hk
      simp only [meaningful] at hk ⊢
      rw [if_neg hk]
  have hps : (if p.isClosed then 0 :: p.s.tail else p.s) = p.s := by
    rw [hg.isClosed, hg.s]
    cases r.isClosed <;> simp
  have hacc : Acceptable v ⟨p.s, p.isClosed, p.isDirect, st.inputs, st.controls, w, o⟩ := by
    refine ⟨by rw [hs.s]; exact hs.two, ?_, ?_, h.inputs.trans hs.s.symm, ?_, ?_, ?_, ha.ready⟩
    · intro hc a b h1 h2
      simp only at hc h1 h2
      rw [hg.isClosed] at hc
      rw [hg.s, if_pos hc] at h1 h2
      have htwo := ha.two
      match hrs : r.s, htwo with
      | x :: y :: l, _ =>
        rw [hrs] at h1 h2
        simp only [List.tail_cons, List.head?_cons, Option.some.injEq] at h1
        subst h1
        refine ⟨by rw [abs_zero]; positivity, (ha.closedEnds hc x b (by rw [hrs]; rfl) ?_).2⟩
        rw [hrs]
        simpa [List.getLast?_cons_cons] using h2
    · intro hc a b h1 h2
      simp only at hc h1 h2
      rw [hg.isClosed] at hc
      rw [hg.s, if_neg (by simp [hc])] at h1 h2
      exact ha.openEnds hc a b h1 h2
    · intro c hc
      obtain ⟨d, hd, hf⟩ := h.mem hc
      exact hf.consistent (hcon d hd)
    · intro c hc hk
      obtain ⟨d, hd, hf⟩ := h.mem hc
      have hk' := hf.kind.symm.trans hk
      simp only
      rw [hf.nValues, hf.nRates, hs.values d hd hk', hs.rates d hd hk', hs.s]
      exact ⟨rfl, rfl⟩
    · intro q hq
      simp only [ho] at hq
      exact ha.names q hq
  obtain ⟨p2, h1, h2⟩ := prepare_accepted lowest max v _ hacc
  rw [h1]
  congr 1
  have hq : p2.quantities = p.quantities := by
    have e1 := prepare_quantities h1
    have e2 := prepare_quantities hp
    simp only [ho] at e1
    rw [e1] at e2
    exact Res.ok.inj e2
  have hstats : p2.stats = p.stats := by
    rw [h2.stats, hg.stats]
    have e : p.controls.map (fun c => (c.kind, c.sHypermesh)) = r.controls.map fun c => (c.kind, c.sHypermesh) := by
      rw [hg.controls, List.map_map]; rfl
    obtain ⟨s1, s2, s3⟩ := stats_congr ((frames_map h).trans e)
    simp only [s1, s2, s3]
  have f1 := h2.s
  have f2 := h2.isClosed
  have f3 := h2.isDirect
  have f4 := h2.nPoints
  have f5 := h2.nElements
  have f6 := h2.inputs
  have f7 := h2.controls
  have f8 := h2.warm
  have f9 := h2.opts
  simp only at f1 f2 f3 f4 f5 f6 f7 f8 f9
  rw [hps] at f1
  rw [hs.s] at f4 f5
  rw [hmean] at f7
  have f5' : p2.nElements = p.nElements := by
    rw [f5, hg.nElements, hg.isClosed, hg.nPoints]
  cases p2
  cases p
  simp only [withData, Problem.mk.injEq] at *
  exact ⟨f1, f2, f3, f4, f5', f6, f7, hstats, hq, f8, f9⟩

/-- Two contents decoded from one vector by new objects with the same start are equal. -/
theorem fresh_eq {v : Vehicle K} {p : Problem K} (hp : Shape p) {ini ini' : Initial K} {su su' st st' : Loaded K}
    {x : List K} (h : Decoded v p ini su st x) (g : Decoded v p ini' su' st' x) (hf : Fresh v p st)
    (gf : Fresh v p st') (hi : p.isClosed = false → ini.inputs = ini'.inputs)
    (hc0 : p.isClosed = false → ∀ (c : Nat) (cv : CV K), p.controls[c]? = some cv → cv.kind = .fullMesh →
      (ini.controls[c]?).map Prod.fst = (ini'.controls[c]?).map Prod.fst ∧
      (p.isDirect = false → (ini.controls[c]?).map Prod.snd = (ini'.controls[c]?).map Prod.snd)) : st = st' := by
  obtain ⟨d1, d2⟩ := h.determined hp g hc0
  have hin : st.inputs = st'.inputs := by
    apply list_eq_of_get (h.fits.inputs.trans g.fits.inputs.symm)
    intro i hi'
    have hi1 : i < p.nPoints := by rw [← g.fits.inputs]; exact hi'
    have e1 : st.inputs[i]? = some (st.inputs[i]'(by rw [h.fits.inputs]; exact hi1)) := List.getElem?_eq_getElem _
    have e2 : st'.inputs[i]? = some st'.inputs[i] := List.getElem?_eq_getElem hi'
    by_cases ho : Optimised p i
    · rw [e1, e2]
      congr 1
      funext j
      by_cases hj : j = v.iTime ∨ v.nInputs ≤ j
      · rw [hf.rows i _ ho e1 j hj, gf.rows i _ ho e2 j hj]
      · rw [not_or] at hj
        exact d2 i _ _ ho e1 e2 j (by omega) hj.1
    · obtain ⟨hcl, rfl⟩ := not_optimised hi1 ho
      rw [h.firstInputs hcl, g.firstInputs hcl, hi hcl]
  cases st; cases st'
  simp only [Loaded.mk.injEq]
  exact ⟨hin, d1⟩

/-- The lap that is returned. -/
theorem Ready.lap {lowest max : K} {v : Vehicle K} {r : Request K} {p : Problem K} {ini : Initial K} {nlp : Nlp K}
    {es : List (Entry K)} {b : List (K × K)} (h : Ready lowest max v r p ini nlp es b)
    (hset : setUp lowest max v r = .ok (p, ini, nlp)) {opt : Optimiser K} (hopt : RightSizes opt) {tf : Bool}
    {lap : Lap K} (hlap : solveLap lowest max v tf opt r = .ok lap) :
    ∃ (st : Loaded K) (row0 : Row K) (node : Nat → Node K),
      loadOf v p ini (initialLoaded p) (opt nlp).x = .ok (st, []) ∧
      Decoded v p ini (initialLoaded p) st (opt nlp).x ∧ Fresh v p st ∧ st.inputs[0]? = some row0 ∧
      EvaluatedNodes v p st node ∧ lap = lapOf v p (opt nlp) st (row0 v.iTime) node ∧
      lap.inputs.length = st.inputs.length ∧ SameInputsButTime v (fun _ => True) st.inputs lap.inputs := by
  obtain ⟨st, row0, h1, h2, h3, h4, h5⟩ := h.solve hset hopt tf
  obtain ⟨node, hn⟩ := h.run.nodes h3.fits
  rw [h5 node hn] at hlap
  split at hlap
  · simp at hlap
  have hl := (Res.ok.inj hlap).symm
  refine ⟨st, row0, node, h1, h2, h3, h4, hn, hl, ?_, ?_⟩
  · rw [hl]
    simp [lapOf, setTimes, h3.fits.inputs]
  · rw [hl]
    intro i ra rb _ ha hb j _ ht
    simp only [lapOf, setTimes, List.getElem?_zipWith] at hb
    rw [ha] at hb
    split at hb
    · rename_i x y hx hy
      obtain rfl := Option.some.inj hx
      rw [← Option.some.inj hb]
      exact (Function.update_of_ne ht _ _).symm
    · simp at hb

end

end Verif.Transcription
