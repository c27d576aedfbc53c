import Verif.Lemmas.Cost

/-! Helper lemmas: positions of the constraints and of their bounds, and the complete evaluation. -/

set_option autoImplicit false
set_option linter.unusedSectionVars false

namespace Verif.Transcription

open Verif.Control

variable {K : Type*}

theorem filter_get {α : Type*} (P : α → Bool) (l : List α) : ∀ (j : Nat) (a : α), l[j]? = some a → P a = true →
    (l.filter P)[((l.take j).filter P).length]? = some a := by
  induction l with
  | nil => intro j a h; simp at h
  | cons b l ih =>
    intro j a h hP
    cases j with
    | zero =>
      simp only [List.getElem?_cons_zero, Option.some.injEq] at h
      subst h; simp [hP]
    | succ j =>
      simp only [List.getElem?_cons_succ] at h
      have := ih j a h hP
      cases hb : P b <;> simp [hb, this]

theorem nFullMesh_filter (cs : List (CV K)) :
    nFullMesh cs = (cs.filter fun c => c.kind = .fullMesh).length := by
  rw [nFullMesh, List.countP_eq_length_filter]

theorem full_get {β : Type*} (f : CV K → β) (cs : List (CV K)) (j : Nat) (cv : CV K) (h : cs[j]? = some cv)
    (hk : cv.kind = .fullMesh) :
    ((cs.filter fun c => c.kind = .fullMesh).map f)[nFullMesh (cs.take j)]? = some (f cv) := by
  rw [nFullMesh_filter, List.getElem?_map, filter_get _ cs j cv h (by simpa using hk)]
  rfl

section
variable [Field K]

/-- Rows of the states, the algebraic equations and the extra constraints of element `e`. -/
def rowBlock (v : Vehicle K) (p : Problem K) (node : Nat → Node K) (e : Nat) : List K :=
  (v.timeIds.map fun q => (node (rightNode p e)).eq.states q - (node e).eq.states q
      - elementLength v p node e * ((1 - p.opts.sigma) * (node e).eq.dstates q
          + p.opts.sigma * (node (rightNode p e)).eq.dstates q))
    ++ (v.algIds.map fun q => (node (rightNode p e)).eq.dstates q / dtds v (node (rightNode p e)).eq)
    ++ (List.range v.nExtra).map (node (rightNode p e)).eq.extra

/-- Rows of the controls of element `e`. -/
def ctlRowBlock (v : Vehicle K) (p : Problem K) (controls : List (CV K)) (node : Nat → Node K) (e : Nat) :
    List K :=
  (controls.filter fun c => c.kind = .fullMesh).map fun cv =>
    valueAt cv (rightNode p e) - valueAt cv e - elementLength v p node e *
        ((1 - p.opts.sigma) * rateAt cv e * dtds v (node e).eq
          + p.opts.sigma * rateAt cv (rightNode p e) * dtds v (node (rightNode p e)).eq)

theorem three_get {α : Type*} (a b c d : List α) (k : Nat) :
    (k < a.length → (a ++ b ++ c ++ d)[k]? = a[k]?) ∧
    (k < b.length → (a ++ b ++ c ++ d)[a.length + k]? = b[k]?) ∧
    (k < c.length → (a ++ b ++ c ++ d)[a.length + b.length + k]? = c[k]?) ∧
    (a ++ b ++ c ++ d)[a.length + b.length + c.length + k]? = d[k]? := by
  refine ⟨?_, ?_, ?_, ?_⟩
  · intro h; simp [List.append_assoc, List.getElem?_append, h]
  · intro h
    rw [List.append_assoc, List.append_assoc, List.getElem?_append_right (by omega), Nat.add_sub_cancel_left,
      List.getElem?_append_left h]
  · intro h
    rw [List.append_assoc, List.getElem?_append_right (by simp), List.length_append,
      Nat.add_sub_cancel_left, List.getElem?_append_left h]
  · rw [List.getElem?_append_right (by simp only [List.length_append]; omega)]
    simp only [List.length_append]
    congr 1; omega

/-- Rows laid out block by block are where the specification says. -/
theorem rowsAre_of_blocks {v : Vehicle K} (hv : v.timeIds.length + v.algIds.length = v.nInputs - 1)
    {p : Problem K} {controls : List (CV K)} (hfm : nFullMesh controls = nFullMesh p.controls)
    {node : Nat → Node K} {value : Nat → K} {R : List K} (hR : R.length = nConstrained p.quantities)
    (hRk : ∀ (k : Nat) (q : Quantity K), p.quantities[k]? = some q → q.restrict = true →
      R[nConstrained (p.quantities.take k)]? = some (value k)) :
    RowsAre v p controls node value
      (((List.range p.nElements).map fun e => rowBlock v p node e ++
        (if p.isDirect then [] else ctlRowBlock v p controls node e)).flatten ++ R) := by
  have hlen : ∀ b ∈ (List.range p.nElements).map (fun e => rowBlock v p node e ++
        (if p.isDirect then [] else ctlRowBlock v p controls node e)), b.length = rowsPerElement v p := by
    intro b hb
    obtain ⟨e, _, rfl⟩ := List.mem_map.1 hb
    unfold rowsPerElement rowBlock ctlRowBlock
    cases p.isDirect
    · simp [← nFullMesh_filter, hfm]; omega
    · simp; omega
  have hget : ∀ e, e < p.nElements → ((List.range p.nElements).map (fun e => rowBlock v p node e ++
        (if p.isDirect then [] else ctlRowBlock v p controls node e)))[e]? = some (rowBlock v p node e ++
        (if p.isDirect then [] else ctlRowBlock v p controls node e)) := by
    intro e he; simp [he]
  refine ⟨?_, ?_, ?_, ?_, ?_, ?_⟩
  · rw [List.length_append, length_flatten_uniform _ _ hlen, hR]; simp
  · intro e k q he hk
    have hk' : k < v.timeIds.length := (List.getElem?_eq_some_iff.1 hk).1
    rw [getElem?_flatten_uniform _ _ hlen e k (by unfold rowsPerElement; omega) _ (hget e he)]
    unfold rowBlock
    rw [(three_get _ _ _ _ k).1 (by simpa using hk'), List.getElem?_map, hk]; rfl
  · intro e k q he hk
    have hk' : k < v.algIds.length := (List.getElem?_eq_some_iff.1 hk).1
    rw [Nat.add_assoc, getElem?_flatten_uniform _ _ hlen e (v.timeIds.length + k) (by unfold rowsPerElement; omega) _ (hget e he)]
    unfold rowBlock
    have := (three_get (v.timeIds.map fun q => (node (rightNode p e)).eq.states q - (node e).eq.states q
      - elementLength v p node e * ((1 - p.opts.sigma) * (node e).eq.dstates q
          + p.opts.sigma * (node (rightNode p e)).eq.dstates q))
      (v.algIds.map fun q => (node (rightNode p e)).eq.dstates q / dtds v (node (rightNode p e)).eq)
      ((List.range v.nExtra).map (node (rightNode p e)).eq.extra)
      (if p.isDirect then [] else ctlRowBlock v p controls node e) k).2.1 (by simpa using hk')
    rw [List.length_map] at this
    rw [this, List.getElem?_map, hk]; rfl
  · intro e k he hk
    rw [Nat.add_assoc, getElem?_flatten_uniform _ _ hlen e (v.nInputs - 1 + k) (by unfold rowsPerElement; omega) _ (hget e he)]
    unfold rowBlock
    have := (three_get (v.timeIds.map fun q => (node (rightNode p e)).eq.states q - (node e).eq.states q
      - elementLength v p node e * ((1 - p.opts.sigma) * (node e).eq.dstates q
          + p.opts.sigma * (node (rightNode p e)).eq.dstates q))
      (v.algIds.map fun q => (node (rightNode p e)).eq.dstates q / dtds v (node (rightNode p e)).eq)
      ((List.range v.nExtra).map (node (rightNode p e)).eq.extra)
      (if p.isDirect then [] else ctlRowBlock v p controls node e) k).2.2.1 (by simpa using hk)
    rw [List.length_map, List.length_map, hv] at this
    rw [this, List.getElem?_map]; simp [hk]
  · intro hd e j cv he hj hk
    have hlt := nFullMesh_take_lt controls j cv hj hk
    rw [Nat.add_assoc, getElem?_flatten_uniform _ _ hlen e
      (v.nInputs - 1 + v.nExtra + nFullMesh (controls.take j))
      (by unfold rowsPerElement; rw [hd]; simp only [Bool.false_eq_true, if_false]; omega) _ (hget e he)]
    unfold rowBlock
    have := (three_get (v.timeIds.map fun q => (node (rightNode p e)).eq.states q - (node e).eq.states q
      - elementLength v p node e * ((1 - p.opts.sigma) * (node e).eq.dstates q
          + p.opts.sigma * (node (rightNode p e)).eq.dstates q))
      (v.algIds.map fun q => (node (rightNode p e)).eq.dstates q / dtds v (node (rightNode p e)).eq)
      ((List.range v.nExtra).map (node (rightNode p e)).eq.extra)
      (if p.isDirect then [] else ctlRowBlock v p controls node e) (nFullMesh (controls.take j))).2.2.2
    rw [List.length_map, List.length_map, List.length_map, List.length_range, hv] at this
    rw [this, hd, if_neg (by simp), ctlRowBlock, full_get _ controls j cv hj hk]
  · intro k q hk hr
    have := getElem?_flatten_uniform_rest _ _ hlen R (nConstrained (p.quantities.take k))
    rw [List.length_map, List.length_range] at this
    rw [this, hRk k q hk hr]

/-- Bounds laid out block by block are where the specification says. -/
theorem boundsAre_of_blocks {v : Vehicle K} (hv : v.timeIds.length + v.algIds.length = v.nInputs - 1)
    {p : Problem K} (hp : Shape p) :
    ∃ b, constraintBounds v p = .ok b ∧ BoundsAre v p b := by
  have h2 := hp.two
  let S : Nat → K := fun i => p.s.getD i 0
  have hS : ∀ i, i < p.nPoints → p.s[i]? = some (S i) := by
    intro i hi; exact get_getD (by rw [hp.s]; exact hi)
  have hcr : ∀ cs : List (CV K), controlRowBounds cs =
      (cs.filter fun c => c.kind = .fullMesh).map fun _ => ((0 : K), (0 : K)) := by
    intro cs
    induction cs with
    | nil => rfl
    | cons c cs ih => by_cases hk : c.kind = .fullMesh <;> simp [controlRowBounds, hk, ih]
  have hqb : ∀ qs : List (Quantity K), quantityBounds qs =
      (qs.filter fun q => q.restrict).map fun q => (q.lowerBound, q.upperBound) := by
    intro qs
    induction qs with
    | nil => rfl
    | cons q qs ih => cases hk : q.restrict <;> simp [quantityBounds, hk, ih]
  let B : Nat → List (K × K) := fun e => elementBounds v (S (rightNode p e)) ++
    (if p.isDirect then [] else controlRowBounds p.controls)
  have hem : emitBounds v p = .ok (((List.range p.nElements).map B).flatten ++ quantityBounds p.quantities) := by
    unfold emitBounds
    dsimp only
    rw [range'_one, mapRes_map (g := fun i => elementBounds v (S i) ++
      (if p.isDirect then [] else controlRowBounds p.controls))]
    · have hmap : (((List.range (p.nPoints - 1)).map (· + 1)).map fun i => elementBounds v (S i) ++
          (if p.isDirect then [] else controlRowBounds p.controls)) = (List.range (p.nPoints - 1)).map B := by
        rw [List.map_map]
        apply List.map_congr_left
        intro e he
        simp only [Function.comp_apply, B, rightNode_inner hp (show e < p.nPoints - 1 by simpa using he)]
      simp only [Res.bind_ok, hmap, elements_split hp B, List.flatten_append]
      cases hc : p.isClosed
      · simp
      · simp [idx, hS 0 (by omega), B, rightNode_last hp]
    · intro i hi
      obtain ⟨e, he, rfl⟩ := List.mem_map.1 hi
      have he' : e < p.nPoints - 1 := by simpa using he
      simp [idx, hS (e + 1) (by omega)]
  have hlen : ∀ b ∈ (List.range p.nElements).map B, b.length = rowsPerElement v p := by
    intro b hb
    obtain ⟨e, _, rfl⟩ := List.mem_map.1 hb
    unfold rowsPerElement
    simp only [B, elementBounds, hcr]
    cases p.isDirect
    · simp [← nFullMesh_filter, hv]; omega
    · simp [hv]
  have hget : ∀ e, e < p.nElements → ((List.range p.nElements).map B)[e]? = some (B e) := by
    intro e he; simp [he]
  have hqlen : (quantityBounds p.quantities).length = nConstrained p.quantities := by
    rw [hqb]; simp [nConstrained]
  have hN : nConstraints v p = p.nElements * rowsPerElement v p + nConstrained p.quantities := by
    rw [nConstraints, nConstraintsPerElement, rowsPerElement, nRestricted_eq, hp.full]
  have hsize : (((List.range p.nElements).map B).flatten ++ quantityBounds p.quantities).length =
      p.nElements * rowsPerElement v p + nConstrained p.quantities := by
    rw [List.length_append, length_flatten_uniform _ _ hlen, hqlen]; simp
  refine ⟨((List.range p.nElements).map B).flatten ++ quantityBounds p.quantities, ?_, ?_⟩
  · rw [constraintBounds, hem, Res.bind_ok, storeAll_full _ _ _ (hsize.trans hN.symm)]
    simp
  have gt := fun e k => three_get (v.timeIds.map fun _ => ((0 : K), (0 : K))) (v.algIds.map fun _ => ((0 : K), (0 : K)))
      ((List.range v.nExtra).map fun j => (v.extraLb (S (rightNode p e)) j, v.extraUb (S (rightNode p e)) j))
      (if p.isDirect then [] else controlRowBounds p.controls) k
  simp only [List.length_map, List.length_range, hv] at gt
  refine ⟨hsize, ?_, ?_, ?_, ?_, ?_⟩
  · intro e k he hk
    rw [getElem?_flatten_uniform _ _ hlen e k (by unfold rowsPerElement; omega) _ (hget e he)]
    simp only [B, elementBounds]
    rw [(gt e k).1 hk, List.getElem?_map]
    simp [hk]
  · intro e k he hk
    rw [Nat.add_assoc, getElem?_flatten_uniform _ _ hlen e (v.timeIds.length + k) (by unfold rowsPerElement; omega) _ (hget e he)]
    simp only [B, elementBounds]
    rw [(gt e k).2.1 hk, List.getElem?_map]
    simp [hk]
  · intro e k sr he hk hs
    rw [hS _ (rightNode_lt hp e), Option.some.injEq] at hs
    rw [Nat.add_assoc, getElem?_flatten_uniform _ _ hlen e (v.nInputs - 1 + k) (by unfold rowsPerElement; omega) _ (hget e he)]
    simp only [B, elementBounds]
    rw [(gt e k).2.2.1 hk, List.getElem?_map]
    simp [hk, hs]
  · intro hd e j cv he hj hk
    have hlt := nFullMesh_take_lt p.controls j cv hj hk
    rw [Nat.add_assoc, getElem?_flatten_uniform _ _ hlen e
      (v.nInputs - 1 + v.nExtra + nFullMesh (p.controls.take j))
      (by unfold rowsPerElement; rw [hd]; simp only [Bool.false_eq_true, if_false]; omega) _ (hget e he)]
    simp only [B, elementBounds]
    rw [(gt e (nFullMesh (p.controls.take j))).2.2.2, hd, if_neg (by simp), hcr, full_get _ p.controls j cv hj hk]
  · intro k q hk hr
    have := getElem?_flatten_uniform_rest _ _ hlen (quantityBounds p.quantities) (nConstrained (p.quantities.take k))
    rw [List.length_map, List.length_range] at this
    rw [this, hqb, List.getElem?_map, nConstrained, filter_get _ p.quantities k q hk hr]
    rfl

end

section
variable [Field K] [LinearOrder K]

theorem FitsProblem.nFullMesh_eq {p : Problem K} {st : Loaded K} (h : FitsProblem p st) :
    nFullMesh st.controls = nFullMesh p.controls :=
  nFullMesh_congr _ _ h.controls.symm h.kinds

/-- The integral rows appended to the constraints. -/
theorem integralRows {p : Problem K} (w : Bool) (hw : w = true ∨ nConstrained p.quantities = 0) (value : Nat → K) :
    let R := if w then restrictedValues p.quantities ((List.range p.quantities.length).map value) else []
    R.length = nConstrained p.quantities ∧
      ∀ (k : Nat) (q : Quantity K), p.quantities[k]? = some q → q.restrict = true →
        R[nConstrained (p.quantities.take k)]? = some (value k) := by
  obtain ⟨h1, h2⟩ := restrictedValues_spec p.quantities ((List.range p.quantities.length).map value) (by simp)
  cases w with
  | true =>
    refine ⟨h1, fun k q hk hr => ?_⟩
    simp only [if_true]
    rw [h2 k q hk hr]
    have : k < p.quantities.length := (List.getElem?_eq_some_iff.1 hk).1
    simp [this]
  | false =>
    simp only [Bool.false_eq_true, false_or] at hw
    refine ⟨by simp [hw], fun k q hk hr => ?_⟩
    rw [nConstrained, List.length_eq_zero_iff, List.filter_eq_nil_iff] at hw
    exact absurd hr (hw q (List.mem_of_getElem? hk))

theorem elementRows_block {v : Vehicle K} {p : Problem K} (hp : Shape p) (node : Nat → Node K) :
    ((List.range (p.nPoints - 1)).map fun e => elementRows v p.opts.sigma (node e) (node (e + 1))) =
      (List.range (p.nPoints - 1)).map (rowBlock v p node) := by
  apply List.map_congr_left
  intro e he
  have he' : e < p.nPoints - 1 := by simpa using he
  simp only [elementRows, rowBlock, rightNode_inner hp he', elementLength, if_pos (show e + 1 < p.nPoints by omega)]

theorem closingRows_block {v : Vehicle K} {p : Problem K} (hp : Shape p) (node : Nat → Node K) :
    closingRows v p.opts.sigma (node 0) (node (p.nPoints - 1)) = rowBlock v p node (p.nPoints - 1) := by
  have h2 := hp.two
  simp only [closingRows, rowBlock, rightNode_last hp, elementLength,
    if_neg (show ¬ (p.nPoints - 1 + 1 < p.nPoints) by omega)]

/-- The sum of the time terms is the quadrature of time per metre. -/
theorem timeTerms_sum {v : Vehicle K} {p : Problem K} (hp : Shape p) (node : Nat → Node K) :
    ((List.range (p.nPoints - 1)).map fun e => timeTerm v p.opts.sigma (node e) (node (e + 1))).sum
      + (if p.isClosed then closingTimeTerm v p.opts.sigma (node 0) (node (p.nPoints - 1)) else 0) =
      quadrature v p node (fun nd => dtds v nd.eq) := by
  have h2 := hp.two
  unfold quadrature quadratureTo
  rw [← sum_split hp]
  have e1 : ((List.range (p.nPoints - 1)).map fun e => timeTerm v p.opts.sigma (node e) (node (e + 1))) =
      (List.range (p.nPoints - 1)).map fun e => elementLength v p node e *
        ((1 - p.opts.sigma) * dtds v (node e).eq + p.opts.sigma * dtds v (node (rightNode p e)).eq) := by
    apply List.map_congr_left
    intro e he
    have he' : e < p.nPoints - 1 := by simpa using he
    simp only [timeTerm, rightNode_inner hp he', elementLength, if_pos (show e + 1 < p.nPoints by omega)]
  have e2 : closingTimeTerm v p.opts.sigma (node 0) (node (p.nPoints - 1)) =
      elementLength v p node (p.nPoints - 1) * ((1 - p.opts.sigma) * dtds v (node (p.nPoints - 1)).eq
        + p.opts.sigma * dtds v (node (rightNode p (p.nPoints - 1))).eq) := by
    simp only [closingTimeTerm, rightNode_last hp, elementLength,
      if_neg (show ¬ (p.nPoints - 1 + 1 < p.nPoints) by omega)]
    ring
  rw [e1, e2]

/-- Evaluation of the direct form. -/
theorem evaluateDirect_ok {v : Vehicle K} (hv : v.timeIds.length + v.algIds.length = v.nInputs - 1)
    {p : Problem K} (hp : Shape p) (hd : p.isDirect = true) {st : Loaded K} (hst : FitsProblem p st)
    {node : Nat → Node K} (hev : evalNodes v p st = .ok ((List.range p.nPoints).map node))
    (hn : EvaluatedNodes v p st node) (w : Bool) (hw : w = true ∨ nConstrained p.quantities = 0) :
    ∃ c, evaluateDirect v p w st = .ok ⟨quadrature v p node (fun nd => dtds v nd.eq)
        + overFullMesh (slopePenalty v p node) st.controls, c,
        if w then (List.range p.quantities.length).map (codedIntegral v p node) else []⟩ ∧
      RowsAre v p st.controls node (codedIntegral v p node) c := by
  have h2 := hp.two
  have hs := hp.replace hst
  obtain ⟨r1, r2⟩ := integralRows (p := p) w hw (codedIntegral v p node)
  have hrows := rowsAre_of_blocks hv hst.nFullMesh_eq (node := node) r1 r2
  refine ⟨_, ?_, hrows⟩
  have hpen := sumFullMesh_ok (penaltyOfDirect p) _ st.controls
    (fun c hc hk => penaltyOfDirect_ok hp hn (hs.values c hc hk))
  have hcpen := sumFullMesh_ok (closingPenaltyOfDirect v p) _ st.controls
    (fun c hc hk => closingPenaltyOfDirect_ok hp hn (hs.values c hc hk))
  unfold evaluateDirect
  simp only [hev, Res.bind_ok, overElements_eq, hpen, hcpen, List.length_map, List.length_range,
    idx_eq_ok.2 (get_map_range node p.nPoints 0 (by omega)),
    idx_eq_ok.2 (get_map_range node p.nPoints (p.nPoints - 1) (by omega)), integralValues_ok hp node,
    elementRows_block hp, closingRows_block hp]
  have hsum : ∀ (t pen ct cp q : K), t + ct = q → t + pen + ct + cp = q + (pen + cp) := by
    intro t pen ct cp q h; rw [← h]; ring
  have hslope : ∀ c : CV K, ((List.range (p.nPoints - 1)).map fun e => c.dissipation *
      ((valueAt c (rightNode p e) - valueAt c e) / elementLength v p node e) ^ 2 *
        elementLength v p node e).sum + (if p.isClosed then (c.dissipation *
      ((valueAt c (rightNode p (p.nPoints - 1)) - valueAt c (p.nPoints - 1)) /
        elementLength v p node (p.nPoints - 1)) ^ 2 * elementLength v p node (p.nPoints - 1)) else 0) =
      slopePenalty v p node c := fun c => sum_split hp _
  have hblocks : ((List.range p.nElements).map fun e => rowBlock v p node e ++
      (if p.isDirect then [] else ctlRowBlock v p st.controls node e)).flatten =
      ((List.range (p.nPoints - 1)).map (rowBlock v p node)).flatten ++
        (if p.isClosed then rowBlock v p node (p.nPoints - 1) else []) := by
    simp only [hd, if_true, List.append_nil]
    rw [elements_split hp, List.flatten_append]
    congr 1
    split <;> simp
  rw [hblocks]
  have htime := timeTerms_sum (v := v) hp node
  cases hc : p.isClosed
  · simp only [hc, Bool.false_eq_true, if_false, Res.bind_ok, add_zero, List.append_nil] at htime hslope ⊢
    simp only [hslope, htime]
    cases w <;> simp
  · simp only [hc, if_true] at htime hslope
    have hov := overFullMesh_add (fun c : CV K => ((List.range (p.nPoints - 1)).map fun e => c.dissipation *
      ((valueAt c (rightNode p e) - valueAt c e) / elementLength v p node e) ^ 2 *
        elementLength v p node e).sum) (fun c => c.dissipation *
      ((valueAt c (rightNode p (p.nPoints - 1)) - valueAt c (p.nPoints - 1)) /
        elementLength v p node (p.nPoints - 1)) ^ 2 * elementLength v p node (p.nPoints - 1)) st.controls
    simp only [hslope] at hov
    simp only [if_true, Res.bind_ok, hsum _ _ _ _ _ htime, hov]
    cases w <;> simp

theorem controlRows_ok {v : Vehicle K} {p : Problem K} (hp : Shape p)
    (node : Nat → Node K) (cs : List (CV K))
    (hc : ∀ c ∈ cs, c.kind = .fullMesh → c.controls.length = p.nPoints ∧ c.dcontrolsDt.length = p.nPoints)
    (e : Nat) (he : e < p.nPoints - 1) :
    controlRows v p.opts.sigma (e + 1) (node e) (node (e + 1)) cs = .ok (ctlRowBlock v p cs node e) := by
  induction cs with
  | nil => rfl
  | cons c cs ih =>
    have ih' := ih (fun d hd => hc d (by simp [hd]))
    unfold ctlRowBlock at ih' ⊢
    by_cases hk : c.kind = .fullMesh
    · obtain ⟨h1, h2⟩ := hc c (by simp) hk
      have hl : e + 1 < p.nPoints := by omega
      simp only [controlRows, hk, if_true, Nat.add_sub_cancel, ih', idx,
        get_getD (l := c.controls) (i := e) (by omega), get_getD (l := c.controls) (i := e + 1) (by omega),
        get_getD (l := c.dcontrolsDt) (i := e) (by omega), get_getD (l := c.dcontrolsDt) (i := e + 1) (by omega),
        Res.bind_ok, List.filter_cons, decide_true, List.map_cons, valueAt, rateAt, rightNode_inner hp he,
        elementLength, if_pos hl]
    · simp [controlRows, hk, ih']

theorem closingControlRows_ok {v : Vehicle K} {p : Problem K} (hp : Shape p)
    (node : Nat → Node K) (cs : List (CV K))
    (hc : ∀ c ∈ cs, c.kind = .fullMesh → c.controls.length = p.nPoints ∧ c.dcontrolsDt.length = p.nPoints) :
    closingControlRows v p.opts.sigma (node 0) (node (p.nPoints - 1)) cs =
      .ok (ctlRowBlock v p cs node (p.nPoints - 1)) := by
  have h2 := hp.two
  induction cs with
  | nil => rfl
  | cons c cs ih =>
    have ih' := ih (fun d hd => hc d (by simp [hd]))
    unfold ctlRowBlock at ih' ⊢
    by_cases hk : c.kind = .fullMesh
    · obtain ⟨h1, h2⟩ := hc c (by simp) hk
      have hl : ¬ (p.nPoints - 1 + 1 < p.nPoints) := by omega
      simp only [closingControlRows, hk, if_true, ih', idx, h1, h2,
        get_getD (l := c.controls) (i := 0) (by omega),
        get_getD (l := c.controls) (i := p.nPoints - 1) (by omega),
        get_getD (l := c.dcontrolsDt) (i := 0) (by omega),
        get_getD (l := c.dcontrolsDt) (i := p.nPoints - 1) (by omega),
        Res.bind_ok, List.filter_cons, decide_true, List.map_cons, valueAt, rateAt, rightNode_last hp,
        elementLength, if_neg hl]
    · simp [closingControlRows, hk, ih']

/-- Evaluation of the derivative form. -/
theorem evaluateDerivative_ok {v : Vehicle K} (hv : v.timeIds.length + v.algIds.length = v.nInputs - 1)
    {p : Problem K} (hp : Shape p) (hd : p.isDirect = false) {st : Loaded K} (hst : FitsProblem p st)
    {node : Nat → Node K} (hev : evalNodes v p st = .ok ((List.range p.nPoints).map node))
    (hn : EvaluatedNodes v p st node) (w : Bool) (hw : w = true ∨ nConstrained p.quantities = 0) :
    ∃ c, evaluateDerivative v p w st = .ok ⟨quadrature v p node (fun nd => dtds v nd.eq)
        + overFullMesh (fun c => ∑ e ∈ Finset.range p.nElements, codedRatePenalty v p node c e) st.controls, c,
        if w then (List.range p.quantities.length).map (codedIntegral v p node) else []⟩ ∧
      RowsAre v p st.controls node (codedIntegral v p node) c := by
  have h2 := hp.two
  have hs := hp.replace hst
  have hsz : ∀ c ∈ st.controls, c.kind = .fullMesh →
      c.controls.length = p.nPoints ∧ c.dcontrolsDt.length = p.nPoints := by
    intro c hc hk
    refine ⟨hs.values c hc hk, ?_⟩
    have := hs.rates c hc hk
    simpa [hd] using this
  obtain ⟨r1, r2⟩ := integralRows (p := p) w hw (codedIntegral v p node)
  have hrows := rowsAre_of_blocks hv hst.nFullMesh_eq (node := node) r1 r2
  refine ⟨_, ?_, hrows⟩
  have hpen := sumFullMesh_ok (penaltyOfDerivative p) _ st.controls
    (fun c hc hk => penaltyOfDerivative_ok hp hn (hsz c hc hk).2)
  have hcpen := sumFullMesh_ok (closingPenaltyOfDerivative v p) _ st.controls
    (fun c hc hk => closingPenaltyOfDerivative_ok hp hn (hsz c hc hk).2)
  have hel : mapRes (fun i => (idx ((List.range p.nPoints).map node) (i - 1)).bind fun l =>
      (idx ((List.range p.nPoints).map node) i).bind fun r =>
      (controlRows v p.opts.sigma i l r st.controls).bind fun cr => .ok (elementRows v p.opts.sigma l r ++ cr))
      (List.range' 1 (p.nPoints - 1)) =
      .ok ((List.range (p.nPoints - 1)).map fun e => rowBlock v p node e ++ ctlRowBlock v p st.controls node e) := by
    rw [range'_one, mapRes_map (g := fun i => rowBlock v p node (i - 1) ++ ctlRowBlock v p st.controls node (i - 1))]
    · rw [List.map_map]; rfl
    · intro i hi
      obtain ⟨e, he, rfl⟩ := List.mem_map.1 hi
      have he' : e < p.nPoints - 1 := by simpa using he
      simp only [Nat.add_sub_cancel, idx_eq_ok.2 (get_map_range node p.nPoints e (by omega)),
        idx_eq_ok.2 (get_map_range node p.nPoints (e + 1) (by omega)), Res.bind_ok,
        controlRows_ok hp node st.controls hsz e he']
      simp only [elementRows, rowBlock, rightNode_inner hp he', elementLength,
        if_pos (show e + 1 < p.nPoints by omega)]
  unfold evaluateDerivative
  simp only [hev, Res.bind_ok, overElements_eq, hel, hpen, hcpen, List.length_map, List.length_range,
    idx_eq_ok.2 (get_map_range node p.nPoints 0 (by omega)),
    idx_eq_ok.2 (get_map_range node p.nPoints (p.nPoints - 1) (by omega)), integralValues_ok hp node,
    closingRows_block hp, closingControlRows_ok hp node st.controls hsz]
  have hsum : ∀ (t pen ct cp q : K), t + ct = q → t + pen + ct + cp = q + (pen + cp) := by
    intro t pen ct cp q h; rw [← h]; ring
  have hslope : ∀ c : CV K, ((List.range (p.nPoints - 1)).map (codedRatePenalty v p node c)).sum
      + (if p.isClosed then codedRatePenalty v p node c (p.nPoints - 1) else 0) =
      ∑ e ∈ Finset.range p.nElements, codedRatePenalty v p node c e := fun c => sum_split hp _
  have hblocks : ((List.range p.nElements).map fun e => rowBlock v p node e ++
      (if p.isDirect then [] else ctlRowBlock v p st.controls node e)).flatten =
      ((List.range (p.nPoints - 1)).map fun e => rowBlock v p node e ++ ctlRowBlock v p st.controls node e).flatten ++
        (if p.isClosed then rowBlock v p node (p.nPoints - 1) ++
          ctlRowBlock v p st.controls node (p.nPoints - 1) else []) := by
    simp only [hd, Bool.false_eq_true, if_false]
    rw [elements_split hp, List.flatten_append]
    congr 1
    split <;> simp
  rw [hblocks]
  have htime := timeTerms_sum (v := v) hp node
  cases hc : p.isClosed
  · simp only [hc, Bool.false_eq_true, if_false, Res.bind_ok, add_zero, List.append_nil] at htime hslope ⊢
    simp only [hslope, htime]
    cases w <;> simp
  · simp only [hc, if_true] at htime hslope
    have hov := overFullMesh_add (fun c : CV K => ((List.range (p.nPoints - 1)).map (codedRatePenalty v p node c)).sum)
      (fun c => codedRatePenalty v p node c (p.nPoints - 1)) st.controls
    simp only [hslope] at hov
    simp only [if_true, Res.bind_ok, hsum _ _ _ _ _ htime, hov]
    cases w <;> simp

theorem fillFg_ok {v : Vehicle K} {p : Problem K} (hp : Shape p) (e : Evaluation K)
    (h : e.rows.length = p.nElements * rowsPerElement v p + nConstrained p.quantities) :
    fillFg v p e = .ok (e.cost :: e.rows) := by
  have hN : nConstraints v p = e.rows.length := by
    rw [nConstraints, nConstraintsPerElement, nRestricted_eq, hp.full, h]; rfl
  unfold fillFg
  rw [hN, storeAll_eq _ _ _ (by simp [Nat.add_comm])]
  simp [Nat.add_comm 1]

/-- The cost function of the direct form. -/
theorem fgDirect_ok {v : Vehicle K} (hv : v.timeIds.length + v.algIds.length = v.nInputs - 1)
    (hl : v.iTime + 1 < v.nInputs) {p : Problem K} (hp : Shape p) (hcon : ∀ c ∈ p.controls, Consistent c)
    (hdef : v.controlsDef.length = p.controls.length) (hcov : HypermeshCovers p) (hd : p.isDirect = true)
    (ini : Initial K) (hi : ini.controls.length = p.controls.length) (st : Loaded K) (hst : FitsProblem p st)
    (x : List K) (hx : x.length = nVariables v p) :
    ∃ (st' : Loaded K) (node : Nat → Node K) (c : List K),
      fgDirect v p ini st x = .ok ((quadrature v p node (fun nd => dtds v nd.eq)
        + overFullMesh (slopePenalty v p node) st'.controls) :: c, st') ∧
      Decoded v p ini st st' x ∧ evalNodes v p st' = .ok ((List.range p.nPoints).map node) ∧
      EvaluatedNodes v p st' node ∧ RowsAre v p st'.controls node (codedIntegral v p node) c := by
  obtain ⟨st', h1, h2⟩ := loadDirect_decoded v hl p hp hd ini hi st hst x hx
  obtain ⟨node, h3, h4⟩ := evalNodes_ok hp hcon hdef hcov h2.fits
  obtain ⟨c, h5, h6⟩ := evaluateDirect_ok hv hp hd h2.fits h3 h4 (withIntegrals p)
    (by rw [withIntegrals, nRestricted_eq]; simp; omega)
  refine ⟨st', node, c, ?_, h2, h3, h4, h6⟩
  unfold fgDirect
  simp only [h1, Res.bind_ok, h5]
  rw [fillFg_ok hp _ h6.size]
  rfl

/-- The cost function of the derivative form. -/
theorem fgDerivative_ok {v : Vehicle K} (hv : v.timeIds.length + v.algIds.length = v.nInputs - 1)
    (hl : v.iTime + 1 < v.nInputs) {p : Problem K} (hp : Shape p) (hcon : ∀ c ∈ p.controls, Consistent c)
    (hdef : v.controlsDef.length = p.controls.length) (hcov : HypermeshCovers p) (hd : p.isDirect = false)
    (ini : Initial K) (hi : ini.controls.length = p.controls.length) (st : Loaded K) (hst : FitsProblem p st)
    (x : List K) (hx : x.length = nVariables v p) :
    ∃ (st' : Loaded K) (node : Nat → Node K) (c : List K),
      fgDerivative v p ini st x = .ok ((quadrature v p node (fun nd => dtds v nd.eq)
        + overFullMesh (fun c => ∑ e ∈ Finset.range p.nElements, codedRatePenalty v p node c e) st'.controls) :: c,
        st') ∧
      Decoded v p ini st st' x ∧ evalNodes v p st' = .ok ((List.range p.nPoints).map node) ∧
      EvaluatedNodes v p st' node ∧ RowsAre v p st'.controls node (codedIntegral v p node) c := by
  obtain ⟨st', h1, h2⟩ := loadDerivative_decoded v hl p hp hd ini hi st hst x hx
  obtain ⟨node, h3, h4⟩ := evalNodes_ok hp hcon hdef hcov h2.fits
  obtain ⟨c, h5, h6⟩ := evaluateDerivative_ok hv hp hd h2.fits h3 h4 (withIntegrals p)
    (by rw [withIntegrals, nRestricted_eq]; simp; omega)
  refine ⟨st', node, c, ?_, h2, h3, h4, h6⟩
  unfold fgDerivative
  simp only [h1, Res.bind_ok, h5]
  rw [fillFg_ok hp _ h6.size]
  rfl

end

end Verif.Transcription
