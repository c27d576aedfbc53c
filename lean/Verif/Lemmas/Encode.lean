import Verif.Lemmas.Loading
import Verif.Props.Control

/-! Every index of the vector belongs to exactly the quantity that the layout says; round trips. -/

set_option autoImplicit false

namespace Verif.Transcription

open Verif.Control

variable {K : Type*}

theorem exists_full_of_lt (cs : List (CV K)) : ∀ q, q < nFullMesh cs →
    ∃ (c : Nat) (cv : CV K), cs[c]? = some cv ∧ cv.kind = .fullMesh ∧ nFullMesh (cs.take c) = q := by
  induction cs with
  | nil => intro q hq; simp at hq
  | cons d cs ih =>
    intro q hq
    rw [nFullMesh_cons] at hq
    by_cases hk : d.kind = .fullMesh
    · cases q with
      | zero => exact ⟨0, d, rfl, hk, rfl⟩
      | succ q =>
        rw [if_pos hk] at hq
        obtain ⟨c, cv, h1, h2, h3⟩ := ih q (by omega)
        exact ⟨c + 1, cv, by simpa using h1, h2, by simp [nFullMesh_cons, hk, h3]; omega⟩
    · rw [if_neg hk] at hq
      obtain ⟨c, cv, h1, h2, h3⟩ := ih q (by omega)
      exact ⟨c + 1, cv, by simpa using h1, h2, by simp [nFullMesh_cons, hk, h3]⟩

theorem exists_other_of_lt (cs : List (CV K)) : ∀ q, q < nOther cs →
    ∃ (c k : Nat) (cv : CV K), cs[c]? = some cv ∧ (cv.kind = .constant ∨ cv.kind = .hypermesh) ∧
      k < cv.controls.length ∧ nOther (cs.take c) + k = q := by
  induction cs with
  | nil => intro q hq; simp at hq
  | cons d cs ih =>
    intro q hq
    rw [nOther_cons] at hq
    by_cases hk : d.kind = .constant ∨ d.kind = .hypermesh
    · rw [if_pos hk] at hq
      by_cases hlt : q < d.controls.length
      · exact ⟨0, q, d, rfl, hk, hlt, by simp⟩
      · obtain ⟨c, k, cv, h1, h2, h3, h4⟩ := ih (q - d.controls.length) (by omega)
        exact ⟨c + 1, k, cv, by simpa using h1, h2, h3, by simp [nOther_cons, hk]; omega⟩
    · rw [if_neg hk] at hq
      obtain ⟨c, k, cv, h1, h2, h3, h4⟩ := ih q (by omega)
      exact ⟨c + 1, k, cv, by simpa using h1, h2, h3, by simp [nOther_cons, hk]; omega⟩

/-- Two vectors of the right size that hold the same inputs and controls are equal. -/
theorem Holds.unique {v : Vehicle K} (hv : v.iTime + 1 < v.nInputs) {p : Problem K} (hp : Shape p)
    {inputs : List (Row K)} {controls : List (CV K)} (hi : inputs.length = p.nPoints)
    (hc : controls.length = p.controls.length)
    (hfr : ∀ (c : Nat) (cv cv' : CV K), p.controls[c]? = some cv → controls[c]? = some cv' → SameFrame cv cv')
    {x y : List K} (hx : x.length = nVariables v p) (hy : y.length = nVariables v p)
    (h : Holds v p inputs controls x) (g : Holds v p inputs controls y) : x = y := by
  apply List.ext_getElem? 
  intro k
  by_cases hk : k < nVariables v p
  swap
  · rw [List.getElem?_eq_none (by omega), List.getElem?_eq_none (by omega)]
  have hnv := nVariables_eq v p hp
  have hfn : firstNode p.isClosed ≤ 1 := by unfold firstNode; split <;> omega
  have htwo := hp.two
  have hB : 0 < blockSize v p.isDirect p.controls := by unfold blockSize; omega
  by_cases hb : k < (p.nPoints - firstNode p.isClosed) * blockSize v p.isDirect p.controls
  · have hq : k / blockSize v p.isDirect p.controls < p.nPoints - firstNode p.isClosed :=
      (Nat.div_lt_iff_lt_mul hB).2 hb
    have hm := Nat.mod_lt k hB
    have hdm := Nat.div_add_mod k (blockSize v p.isDirect p.controls)
    have hopt : Optimised p (k / blockSize v p.isDirect p.controls + firstNode p.isClosed) :=
      ⟨Nat.le_add_left _ _, by omega⟩
    have hstart : blockStart v p (k / blockSize v p.isDirect p.controls + firstNode p.isClosed) +
        k % blockSize v p.isDirect p.controls = k := by
      rw [blockStart, Nat.add_sub_cancel, Nat.mul_comm]; exact hdm
    generalize k / blockSize v p.isDirect p.controls + firstNode p.isClosed = i at hopt hstart
    generalize k % blockSize v p.isDirect p.controls = r at hm hstart
    by_cases h1 : r < v.nInputs - 1
    · -- an input
      have hil : i < inputs.length := by rw [hi]; exact hopt.2
      have hj : ∃ j, j < v.nInputs ∧ j ≠ v.iTime ∧ inputSlot v j = r := by
        by_cases hlt : r < v.iTime
        · exact ⟨r, by omega, by omega, by simp [inputSlot, hlt]⟩
        · refine ⟨r + 1, by omega, by omega, ?_⟩
          unfold inputSlot; rw [if_neg (by omega)]; omega
      obtain ⟨j, hj1, hj2, hj3⟩ := hj
      have e1 := h.inputs i j inputs[i] hopt hj1 hj2 (List.getElem?_eq_getElem hil)
      have e2 := g.inputs i j inputs[i] hopt hj1 hj2 (List.getElem?_eq_getElem hil)
      rw [inputPos, hj3, hstart] at e1 e2
      rw [e1, e2]
    · by_cases h2 : r < v.nInputs - 1 + nFullMesh p.controls
      · obtain ⟨c, cv, c1, c2, c3⟩ := exists_full_of_lt p.controls (r - (v.nInputs - 1)) (by omega)
        obtain ⟨cw, hcw⟩ := exists_get_of_length hc c1
        have hkw : cw.kind = .fullMesh := (hfr c cv cw c1 hcw).kind.trans c2
        obtain ⟨a, a1, a2⟩ := h.full i c cw hopt hcw hkw
        obtain ⟨b, b1, b2⟩ := g.full i c cw hopt hcw hkw
        have hpos : fullPos v p i c = k := by rw [fullPos, c3]; omega
        rw [hpos] at a2 b2
        rw [a2, b2, ← a1, ← b1]
      · cases hd : p.isDirect with
        | true =>
          exfalso
          have : blockSize v p.isDirect p.controls = v.nInputs - 1 + nFullMesh p.controls := by
            simp [blockSize, hd]
          omega
        | false =>
          have : blockSize v p.isDirect p.controls = v.nInputs - 1 + 2 * nFullMesh p.controls := by
            simp [blockSize, hd]
          obtain ⟨c, cv, c1, c2, c3⟩ := exists_full_of_lt p.controls
            (r - (v.nInputs - 1 + nFullMesh p.controls)) (by omega)
          obtain ⟨cw, hcw⟩ := exists_get_of_length hc c1
          have hkw : cw.kind = .fullMesh := (hfr c cv cw c1 hcw).kind.trans c2
          obtain ⟨a, a1, a2⟩ := h.rates hd i c cw hopt hcw hkw
          obtain ⟨b, b1, b2⟩ := g.rates hd i c cw hopt hcw hkw
          have hpos : ratePos v p i c = k := by rw [ratePos, c3]; omega
          rw [hpos] at a2 b2
          rw [a2, b2, ← a1, ← b1]
  · obtain ⟨c, q, cv, c1, c2, c3, c4⟩ := exists_other_of_lt p.controls
      (k - (p.nPoints - firstNode p.isClosed) * blockSize v p.isDirect p.controls) (by omega)
    obtain ⟨cw, hcw⟩ := exists_get_of_length hc c1
    have hf := hfr c cv cw c1 hcw
    obtain ⟨a, a1, a2⟩ := h.other c q cw hcw (by rw [hf.kind]; exact c2) (by rw [hf.nValues]; exact c3)
    obtain ⟨b, b1, b2⟩ := g.other c q cw hcw (by rw [hf.kind]; exact c2) (by rw [hf.nValues]; exact c3)
    have hpos : otherPos v p c q = k := by rw [otherPos, Nat.add_assoc, c4]; omega
    rw [hpos] at a2 b2
    rw [a2, b2, ← a1, ← b1]

/-- The starting values of a packed vector. -/
theorem Layout.holds [Field K] {v : Vehicle K} {p : Problem K} (hp : Shape p) {es : List (Entry K)}
    (h : Layout v p es) : Holds v p p.inputs p.controls (es.map Entry.start) := by
  refine ⟨?_, ?_, ?_, ?_⟩
  · intro i j row hi hj ht hr
    obtain ⟨si, hs⟩ : ∃ si, p.s[i]? = some si := ⟨_, List.getElem?_eq_getElem (by rw [hp.s]; exact hi.2)⟩
    simp [h.inputs i j row si hi hj ht hr hs]
  · intro i c cv hi hc hk
    obtain ⟨a, h1, h2⟩ := h.full i c cv hi hc hk
    exact ⟨a, h1, by simp [h2]⟩
  · intro hd i c cv hi hc hk
    obtain ⟨a, l, u, h1, _, _, h2⟩ := h.rates hd i c cv hi hc hk
    exact ⟨a, h1, by simp [h2]⟩
  · intro c k cv hc hk hkl
    obtain ⟨a, h1, h2⟩ := h.other c k cv hc hk hkl
    exact ⟨a, h1, by simp [h2]⟩

theorem list_eq_of_get {α : Type*} {l l' : List α} (hl : l'.length = l.length)
    (h : ∀ i, i < l.length → l'[i]? = l[i]?) : l' = l := by
  apply List.ext_getElem?
  intro i
  by_cases hi : i < l.length
  · exact h i hi
  · rw [List.getElem?_eq_none (by omega), List.getElem?_eq_none (by omega)]

theorem CV_ext {a b : CV K} (h1 : a.kind = b.kind) (h2 : a.sHypermesh = b.sHypermesh)
    (h3 : a.controls = b.controls) (h4 : a.dcontrolsDt = b.dcontrolsDt) (h5 : a.dissipation = b.dissipation) :
    a = b := by
  cases a; cases b; simp_all

/-- Decoding a vector that holds the problem's own data gives that data back. -/
theorem Decoded.same {v : Vehicle K} {p : Problem K} (hp : Shape p) {ini : Initial K}
    {st st' : Loaded K} {x : List K} (h : Decoded v p ini st st' x) (hx : Holds v p p.inputs p.controls x)
    (hi0 : p.isClosed = false → p.inputs[0]? = some ini.inputs)
    (hc0 : p.isClosed = false → ∀ (c : Nat) (cv : CV K), p.controls[c]? = some cv → cv.kind = .fullMesh →
      (ini.controls[c]?).map Prod.fst = cv.controls[0]? ∧
      (p.isDirect = false → (ini.controls[c]?).map Prod.snd = cv.dcontrolsDt[0]?)) :
    SameInputsButTime v (fun _ => True) st'.inputs p.inputs ∧ st'.controls = p.controls ∧
      st'.inputs.length = p.inputs.length := by
  have hopt : ∀ i, i < p.nPoints → ¬ Optimised p i → p.isClosed = false ∧ i = 0 := by
    intro i hi hn
    unfold Optimised firstNode at hn
    cases hc : p.isClosed with
    | true => rw [hc] at hn; simp at hn; omega
    | false => rw [hc] at hn; simp at hn; exact ⟨rfl, by omega⟩
  refine ⟨?_, ?_, h.fits.inputs.trans hp.inputs.symm⟩
  · intro i ra rb _ hra hrb j hj ht
    have hil : i < p.nPoints := by rw [← hp.inputs]; exact (List.getElem?_eq_some_iff.1 hrb).1
    by_cases ho : Optimised p i
    · have e1 := h.holds.inputs i j ra ho hj ht hra
      have e2 := hx.inputs i j rb ho hj ht hrb
      rw [e1] at e2
      simpa using e2
    · obtain ⟨hc, rfl⟩ := hopt i hil ho
      rw [h.firstInputs hc] at hra
      rw [hi0 hc] at hrb
      simp only [Option.some.injEq] at hra hrb
      rw [← hra, ← hrb]
  · apply list_eq_of_get h.fits.controls
    intro c hc
    have hcv : p.controls[c]? = some p.controls[c] := List.getElem?_eq_getElem hc
    obtain ⟨cw, hcw⟩ := exists_get_of_length h.fits.controls hcv
    rw [hcw, hcv]
    generalize p.controls[c] = cv at hcv
    have hmem := List.mem_of_getElem? hcv
    have hf := h.fits.frames c cv cw hcv hcw
    congr 1
    refine CV_ext hf.kind hf.mesh ?_ ?_ hf.diss
    · apply list_eq_of_get hf.nValues
      intro k hk
      by_cases k1 : cv.kind = .fullMesh
      · rw [hp.values cv hmem k1] at hk
        by_cases ho : Optimised p k
        · obtain ⟨a, a1, a2⟩ := h.holds.full k c cw ho hcw (hf.kind.trans k1)
          obtain ⟨b, b1, b2⟩ := hx.full k c cv ho hcv k1
          rw [a1, b1, ← a2, ← b2]
        · obtain ⟨hcl, rfl⟩ := hopt k hk ho
          rw [(h.firstControls hcl c cw hcw (hf.kind.trans k1)).1, (hc0 hcl c cv hcv k1).1]
      · by_cases k2 : cv.kind = .constant ∨ cv.kind = .hypermesh
        · obtain ⟨a, a1, a2⟩ := h.holds.other c k cw hcw (by rw [hf.kind]; exact k2)
            (by rw [hf.nValues]; exact hk)
          obtain ⟨b, b1, b2⟩ := hx.other c k cv hcv k2 hk
          rw [a1, b1, ← a2, ← b2]
        · rw [not_or] at k2
          rw [hp.idle cv hmem k2.1 k2.2 k1] at hk
          simp at hk
    · apply list_eq_of_get hf.nRates
      intro k hk
      by_cases k1 : cv.kind = .fullMesh
      · rw [hp.rates cv hmem k1] at hk
        cases hd : p.isDirect with
        | true => simp [hd] at hk
        | false =>
          simp [hd] at hk
          by_cases ho : Optimised p k
          · obtain ⟨a, a1, a2⟩ := h.holds.rates hd k c cw ho hcw (hf.kind.trans k1)
            obtain ⟨b, b1, b2⟩ := hx.rates hd k c cv ho hcv k1
            rw [a1, b1, ← a2, ← b2]
          · obtain ⟨hcl, rfl⟩ := hopt k hk ho
            rw [(h.firstControls hcl c cw hcw (hf.kind.trans k1)).2 hd, (hc0 hcl c cv hcv k1).2 hd]
      · rw [hp.noRates cv hmem k1] at hk
        simp at hk

theorem controlArrayAtS_length [LinearOrder K] (cs : List (CV K)) : ∀ (ds : List K) (i : Nat) (s : K)
    (us : List K), cs.length = ds.length → controlArrayAtS cs ds i s = .ok us →
    us.length = cs.length ∧ ∀ (c : Nat) (cv : CV K), cs[c]? = some cv → cv.kind = .fullMesh → us[c]? = cv.controls[i]? := by
  induction cs with
  | nil =>
    intro ds i s us _ h
    simp [controlArrayAtS] at h
    subst h; simp
  | cons d cs ih =>
    intro ds i s us hl h
    match ds, hl with
    | e :: ds, hl =>
      simp only [controlArrayAtS, Res.bind_eq_ok] at h
      obtain ⟨a, ha, us', hus, h⟩ := h
      simp only [Res.ok.injEq] at h
      subst h
      obtain ⟨h1, h2⟩ := ih ds i s us' (by simpa using hl) hus
      refine ⟨by simp [h1], ?_⟩
      intro c cv hc hk
      cases c with
      | zero =>
        simp at hc; subst hc
        simp [Control.controlAt, hk] at ha
        simp [ha]
      | succ c => simpa using h2 c cv (by simpa using hc) hk

theorem controlArrayAndDerivativeAtS_length [Zero K] [LinearOrder K] (cs : List (CV K)) :
    ∀ (ds : List K) (i : Nat) (s : K) (us : List (K × K)), cs.length = ds.length →
    controlArrayAndDerivativeAtS cs ds i s = .ok us →
    us.length = cs.length ∧ ∀ (c : Nat) (cv : CV K), cs[c]? = some cv → cv.kind = .fullMesh →
      (us[c]?).map Prod.fst = cv.controls[i]? ∧ (us[c]?).map Prod.snd = cv.dcontrolsDt[i]? := by
  induction cs with
  | nil =>
    intro ds i s us _ h
    simp [controlArrayAndDerivativeAtS] at h
    subst h; simp
  | cons d cs ih =>
    intro ds i s us hl h
    match ds, hl with
    | e :: ds, hl =>
      simp only [controlArrayAndDerivativeAtS, Res.bind_eq_ok] at h
      obtain ⟨a, ha, us', hus, h⟩ := h
      simp only [Res.ok.injEq] at h
      subst h
      obtain ⟨h1, h2⟩ := ih ds i s us' (by simpa using hl) hus
      refine ⟨by simp [h1], ?_⟩
      intro c cv hc hk
      cases c with
      | zero =>
        simp at hc; subst hc
        simp only [controlAndDerivativeAt, hk, Res.bind_eq_ok, idx_eq_ok] at ha
        obtain ⟨x, hx, y, hy, ha⟩ := ha
        simp only [Res.ok.injEq] at ha
        subst ha
        simp [hx, hy]
      | succ c => simpa using h2 c cv (by simpa using hc) hk

theorem initialDirect_spec [Zero K] [LinearOrder K] {v : Vehicle K} {p : Problem K} {ini : Initial K}
    (hd : v.controlsDef.length = p.controls.length) (h : initialDirect v p = .ok ini) :
    ini.controls.length = p.controls.length ∧ p.inputs[0]? = some ini.inputs ∧
      ∀ (c : Nat) (cv : CV K), p.controls[c]? = some cv → cv.kind = .fullMesh →
        (ini.controls[c]?).map Prod.fst = cv.controls[0]? := by
  simp only [initialDirect, Res.bind_eq_ok, idx_eq_ok] at h
  obtain ⟨s0, _, u, hu, row, hr, h⟩ := h
  simp only [Res.ok.injEq] at h
  subst h
  obtain ⟨h1, h2⟩ := controlArrayAtS_length _ _ _ _ _ hd.symm hu
  refine ⟨by simp [h1], hr, ?_⟩
  intro c cv hc hk
  rw [← h2 c cv hc hk]
  simp [Function.comp_def]

theorem initialDerivative_spec [Zero K] [LinearOrder K] {v : Vehicle K} {p : Problem K} {ini : Initial K}
    (hd : v.controlsDef.length = p.controls.length) (h : initialDerivative v p = .ok ini) :
    ini.controls.length = p.controls.length ∧ p.inputs[0]? = some ini.inputs ∧
      ∀ (c : Nat) (cv : CV K), p.controls[c]? = some cv → cv.kind = .fullMesh →
        (ini.controls[c]?).map Prod.fst = cv.controls[0]? ∧
        (ini.controls[c]?).map Prod.snd = cv.dcontrolsDt[0]? := by
  simp only [initialDerivative, Res.bind_eq_ok, idx_eq_ok] at h
  obtain ⟨s0, _, u, hu, row, hr, h⟩ := h
  simp only [Res.ok.injEq] at h
  subst h
  obtain ⟨h1, h2⟩ := controlArrayAndDerivativeAtS_length _ _ _ _ _ hd.symm hu
  exact ⟨h1, hr, h2⟩

/-- Replacing the data of a problem by data that fits it keeps its shape. -/
theorem Shape.replace {p : Problem K} (hp : Shape p) {st : Loaded K} (h : FitsProblem p st) :
    Shape { p with inputs := st.inputs, controls := st.controls } := by
  have hm : ∀ c ∈ st.controls, ∃ cv ∈ p.controls, SameFrame cv c := fun c hc => h.mem hc
  refine ⟨hp.two, hp.s, h.inputs, hp.elements, ?_, ?_, ?_, ?_, ?_, ?_, ?_, ?_⟩
  · intro c hc hk
    obtain ⟨d, hd, hf⟩ := hm c hc
    exact hf.nValues.trans (hp.const1 d hd (hf.kind.symm.trans hk))
  · intro c hc hk
    obtain ⟨d, hd, hf⟩ := hm c hc
    exact hf.nValues.trans (hp.values d hd (hf.kind.symm.trans hk))
  · intro c hc hk
    obtain ⟨d, hd, hf⟩ := hm c hc
    exact hf.nRates.trans (hp.rates d hd (hf.kind.symm.trans hk))
  · intro c hc hk
    obtain ⟨d, hd, hf⟩ := hm c hc
    have := hp.noRates d hd (fun e => hk (hf.kind.trans e))
    exact List.eq_nil_of_length_eq_zero (by rw [hf.nRates, this]; rfl)
  · intro c hc k1 k2 k3
    obtain ⟨d, hd, hf⟩ := hm c hc
    rw [hf.kind] at k1 k2 k3
    exact List.eq_nil_of_length_eq_zero (by rw [hf.nValues, hp.idle d hd k1 k2 k3]; rfl)
  · intro c hc
    obtain ⟨d, hd, hf⟩ := hm c hc
    have := hp.consistent d hd
    rw [hf.kind, hf.mesh, hf.nValues]
    exact this
  · exact hp.full.trans (nFullMesh_congr _ _ h.controls.symm h.kinds).symm
  · exact hp.other.trans (nOther_congr _ _ h.controls.symm (fun c a b ha hb =>
      ⟨(h.frames c a b ha hb).kind, (h.frames c a b ha hb).nValues⟩)).symm

/-- Positions do not depend on the values. -/
theorem Holds.replace {v : Vehicle K} {p : Problem K} {st : Loaded K} (h : FitsProblem p st)
    {inputs : List (Row K)} {controls : List (CV K)} {x : List K}
    (hx : Holds v { p with inputs := st.inputs, controls := st.controls } inputs controls x) :
    Holds v p inputs controls x := by
  have e1 : nFullMesh st.controls = nFullMesh p.controls := nFullMesh_congr _ _ h.controls.symm h.kinds
  have e2 : ∀ c, nFullMesh (st.controls.take c) = nFullMesh (p.controls.take c) :=
    fun c => nFullMesh_take_congr h.controls h.kinds c
  have e3 : ∀ c, nOther (st.controls.take c) = nOther (p.controls.take c) :=
    fun c => nOther_take_congr h.controls (fun c a b ha hb =>
      ⟨(h.frames c a b ha hb).kind, (h.frames c a b ha hb).nValues⟩) c
  have e4 : blockSize v p.isDirect st.controls = blockSize v p.isDirect p.controls := by
    simp only [blockSize, e1]
  refine ⟨?_, ?_, ?_, ?_⟩
  · intro i j row hi hj ht hr
    have := hx.inputs i j row hi hj ht hr
    simpa only [inputPos, blockStart, e4] using this
  · intro i c cv hi hc hk
    have := hx.full i c cv hi hc hk
    simpa only [fullPos, blockStart, e4, e2] using this
  · intro hd i c cv hi hc hk
    have := hx.rates hd i c cv hi hc hk
    simpa only [ratePos, blockStart, e4, e2, e1] using this
  · intro c k cv hc hk hkl
    have := hx.other c k cv hc hk hkl
    simpa only [otherPos, e4, e3] using this

end Verif.Transcription
