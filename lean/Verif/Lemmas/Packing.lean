import Verif.Lemmas.Transcription

/-! The vectors written by the packing loops, position by position. -/

set_option autoImplicit false

namespace Verif.Transcription

open Verif.Control

variable {K : Type*}

/-- What is known of a problem after the constructor's checks. -/
structure Shape (p : Problem K) : Prop where
  two : 2 ≤ p.nPoints
  s : p.s.length = p.nPoints
  inputs : p.inputs.length = p.nPoints
  elements : p.nElements = p.nPoints - firstNode p.isClosed
  const1 : ∀ c ∈ p.controls, c.kind = .constant → c.controls.length = 1
  values : ∀ c ∈ p.controls, c.kind = .fullMesh → c.controls.length = p.nPoints
  rates : ∀ c ∈ p.controls, c.kind = .fullMesh → c.dcontrolsDt.length = if p.isDirect then 0 else p.nPoints
  noRates : ∀ c ∈ p.controls, c.kind ≠ .fullMesh → c.dcontrolsDt = []
  idle : ∀ c ∈ p.controls, c.kind ≠ .constant → c.kind ≠ .hypermesh → c.kind ≠ .fullMesh → c.controls = []
  consistent : ∀ c ∈ p.controls, (c.kind = .fullMesh ∨ c.kind = .hypermesh ∨ c.kind = .constant ∨
    c.kind = .dontOptimize) ∧ (c.kind = .hypermesh → c.sHypermesh.length = c.controls.length)
  full : p.stats.nFull = nFullMesh p.controls
  other : p.stats.nConstant + p.stats.nHypermesh = nOther p.controls

theorem nVariablesPerPoint_eq (v : Vehicle K) (p : Problem K) (h : Shape p) :
    nVariablesPerPoint v p.isDirect p.stats = blockSize v p.isDirect p.controls := by
  unfold nVariablesPerPoint blockSize
  cases p.isDirect <;> simp [h.full]

theorem nVariables_eq (v : Vehicle K) (p : Problem K) (h : Shape p) :
    nVariables v p =
      (p.nPoints - firstNode p.isClosed) * blockSize v p.isDirect p.controls + nOther p.controls := by
  rw [nVariables, nVariablesPerPoint_eq v p h, h.elements, Nat.add_assoc, h.other]

theorem offset_eq (b : Bool) : offset b = firstNode b := rfl

theorem mem_nodeIndices (p : Problem K) (h : Shape p) (i : Nat) :
    i ∈ nodeIndices p ↔ Optimised p i := by
  have h2 := h.two
  have h3 : firstNode p.isClosed ≤ 1 := by unfold firstNode; split <;> omega
  simp only [nodeIndices, List.mem_range'_1, Optimised, offset_eq]
  omega

theorem nodeIndices_get (p : Problem K) (i : Nat) (hi : Optimised p i) :
    (nodeIndices p)[i - firstNode p.isClosed]? = some i := by
  obtain ⟨h1, h2⟩ := hi
  unfold nodeIndices
  rw [offset_eq, List.getElem?_range' (by omega)]
  congr 1
  omega

theorem nodeIndices_length (p : Problem K) : (nodeIndices p).length = p.nPoints - firstNode p.isClosed := by
  simp [nodeIndices, offset_eq]

section
variable [Field K]

/-- The block of a direct node. -/
theorem packNodeDirect_ok (v : Vehicle K) (p : Problem K) (h : Shape p) (hd : p.isDirect = true)
    (hv : v.iTime + 1 < v.nInputs) (i : Nat) (hi : i < p.nPoints) :
    ∃ es row si, packNodeDirect v p i = .ok es ∧ p.inputs[i]? = some row ∧ p.s[i]? = some si ∧
      es.length = blockSize v p.isDirect p.controls ∧
      (∀ j, j < v.nInputs → j ≠ v.iTime → es[inputSlot v j]? =
        some ⟨row j, inputLb v p.opts si j, inputUb v p.opts si j⟩) ∧
      (∀ (c : Nat) (cv : CV K), p.controls[c]? = some cv → cv.kind = .fullMesh →
        ∃ a, cv.controls[i]? = some a ∧ es[v.nInputs - 1 + nFullMesh (p.controls.take c)]? =
          some ⟨a, p.opts.controlsLb c, p.opts.controlsUb c⟩) := by
  obtain ⟨row, hrow⟩ : ∃ row, p.inputs[i]? = some row := ⟨_, List.getElem?_eq_getElem (by rw [h.inputs]; exact hi)⟩
  obtain ⟨si, hs⟩ : ∃ si, p.s[i]? = some si := ⟨_, List.getElem?_eq_getElem (by rw [h.s]; exact hi)⟩
  obtain ⟨es, h1, h2, h3⟩ := fullEntries_ok p.opts.controlsLb p.opts.controlsUb i p.controls 0
    (fun c hc hk => by rw [h.values c hc hk]; exact hi)
  have hpl := packInputs_length v hv p.opts si row
  refine ⟨packInputs v p.opts si row ++ es, row, si, ?_, hrow, hs, ?_, ?_, ?_⟩
  · simp [packNodeDirect, idx, hrow, hs, h1]
  · simp [hpl, h2, blockSize, hd]
  · intro j hj ht
    have : inputSlot v j < v.nInputs - 1 := by unfold inputSlot; split <;> omega
    rw [List.getElem?_append_left (by omega)]
    exact packInputs_get v _ _ _ j hj ht
  · intro c cv hc hk
    obtain ⟨a, ha, hb⟩ := h3 c cv hc hk
    refine ⟨a, ha, ?_⟩
    rw [List.getElem?_append_right (by omega), hpl, Nat.add_sub_cancel_left, hb, Nat.zero_add]

/-- The block of a derivative node. -/
theorem packNodeDerivative_ok (v : Vehicle K) (p : Problem K) (h : Shape p) (hd : p.isDirect = false)
    (hr : v.RatesBounded p.controls) (hv : v.iTime + 1 < v.nInputs) (i : Nat) (hi : i < p.nPoints) :
    ∃ es row si, packNodeDerivative v p i = .ok es ∧ p.inputs[i]? = some row ∧ p.s[i]? = some si ∧
      es.length = blockSize v p.isDirect p.controls ∧
      (∀ j, j < v.nInputs → j ≠ v.iTime → es[inputSlot v j]? =
        some ⟨row j, inputLb v p.opts si j, inputUb v p.opts si j⟩) ∧
      (∀ (c : Nat) (cv : CV K), p.controls[c]? = some cv → cv.kind = .fullMesh →
        ∃ a, cv.controls[i]? = some a ∧ es[v.nInputs - 1 + nFullMesh (p.controls.take c)]? =
          some ⟨a, p.opts.controlsLb c, p.opts.controlsUb c⟩) ∧
      (∀ (c : Nat) (cv : CV K), p.controls[c]? = some cv → cv.kind = .fullMesh →
        ∃ a l u, cv.dcontrolsDt[i]? = some a ∧ v.dcontrolsLb[c]? = some l ∧ v.dcontrolsUb[c]? = some u ∧
          es[v.nInputs - 1 + nFullMesh p.controls + nFullMesh (p.controls.take c)]? = some ⟨a, l, u⟩) := by
  obtain ⟨row, hrow⟩ : ∃ row, p.inputs[i]? = some row := ⟨_, List.getElem?_eq_getElem (by rw [h.inputs]; exact hi)⟩
  obtain ⟨si, hs⟩ : ∃ si, p.s[i]? = some si := ⟨_, List.getElem?_eq_getElem (by rw [h.s]; exact hi)⟩
  obtain ⟨es, h1, h2, h3⟩ := fullEntries_ok p.opts.controlsLb p.opts.controlsUb i p.controls 0
    (fun c hc hk => by rw [h.values c hc hk]; exact hi)
  obtain ⟨ds, g1, g2, g3⟩ := fullDerivativeEntries_ok v.dcontrolsLb v.dcontrolsUb i p.controls 0
    (fun c hc hk => by rw [h.rates c hc hk, hd]; exact hi)
    (fun c cv hc hk => by rw [Nat.zero_add]; exact hr c cv hc hk)
  have hpl := packInputs_length v hv p.opts si row
  refine ⟨packInputs v p.opts si row ++ es ++ ds, row, si, ?_, hrow, hs, ?_, ?_, ?_, ?_⟩
  · simp [packNodeDerivative, idx, hrow, hs, h1, g1]
  · simp [hpl, h2, g2, blockSize, hd]; omega
  · intro j hj ht
    have : inputSlot v j < v.nInputs - 1 := by unfold inputSlot; split <;> omega
    rw [List.append_assoc, List.getElem?_append_left (by omega)]
    exact packInputs_get v _ _ _ j hj ht
  · intro c cv hc hk
    obtain ⟨a, ha, hb⟩ := h3 c cv hc hk
    refine ⟨a, ha, ?_⟩
    have := nFullMesh_take_lt _ c cv hc hk
    rw [List.append_assoc, List.getElem?_append_right (by omega), hpl, Nat.add_sub_cancel_left,
      List.getElem?_append_left (by omega), hb, Nat.zero_add]
  · intro c cv hc hk
    obtain ⟨a, l, u, ha, hl, hu, hb⟩ := g3 c cv hc hk
    rw [Nat.zero_add] at hl hu
    refine ⟨a, l, u, ha, hl, hu, ?_⟩
    rw [List.getElem?_append_right (by simp; omega)]
    have e : v.nInputs - 1 + nFullMesh p.controls + nFullMesh (p.controls.take c) -
      (packInputs v p.opts si row ++ es).length
        = nFullMesh (p.controls.take c) := by
      rw [List.length_append, hpl, h2]; omega
    rw [e, hb]

/-- Everything about the entries of the vector: their number, and the entry of each optimised
quantity with its bounds. -/
structure Layout (v : Vehicle K) (p : Problem K) (es : List (Entry K)) : Prop where
  length : es.length = nVariables v p
  inputs : ∀ (i j : Nat) (row : Row K) (si : K), Optimised p i → j < v.nInputs → j ≠ v.iTime →
    p.inputs[i]? = some row → p.s[i]? = some si → es[inputPos v p i j]? =
      some ⟨row j, inputLb v p.opts si j, inputUb v p.opts si j⟩
  full : ∀ (i c : Nat) (cv : CV K), Optimised p i → p.controls[c]? = some cv → cv.kind = .fullMesh →
    ∃ a, cv.controls[i]? = some a ∧ es[fullPos v p i c]? =
      some ⟨a, p.opts.controlsLb c, p.opts.controlsUb c⟩
  rates : p.isDirect = false → ∀ (i c : Nat) (cv : CV K), Optimised p i → p.controls[c]? = some cv →
    cv.kind = .fullMesh → ∃ a l u, cv.dcontrolsDt[i]? = some a ∧ v.dcontrolsLb[c]? = some l ∧
      v.dcontrolsUb[c]? = some u ∧ es[ratePos v p i c]? = some ⟨a, l, u⟩
  other : ∀ (c k : Nat) (cv : CV K), p.controls[c]? = some cv →
    (cv.kind = .constant ∨ cv.kind = .hypermesh) → k < cv.controls.length →
    ∃ a, cv.controls[k]? = some a ∧ es[otherPos v p c k]? =
      some ⟨a, p.opts.controlsLb c, p.opts.controlsUb c⟩

omit [Field K] in
theorem inputSlot_lt (v : Vehicle K) (hv : v.iTime + 1 < v.nInputs) (j : Nat) (hj : j < v.nInputs) (_ht : j ≠ v.iTime) :
    inputSlot v j < v.nInputs - 1 := by
  unfold inputSlot; split <;> omega

omit [Field K] in
theorem blocks_get {f : Nat → Res (List (Entry K))} (p : Problem K) {nodes : List (List (Entry K))}
    (hn : mapRes f (nodeIndices p) = .ok nodes) (i : Nat) (hi : Optimised p i) :
    ∃ b, nodes[i - firstNode p.isClosed]? = some b ∧ f i = .ok b :=
  (mapRes_eq_ok hn).2 _ _ (nodeIndices_get p i hi)

omit [Field K] in
theorem fillVariables_full [Zero K] (v : Vehicle K) (p : Problem K) (lo hi : K) (es : List (Entry K))
    (h : es.length = nVariables v p) : fillVariables v p lo hi es = .ok es := by
  simp [fillVariables, storeAll_full _ _ _ h]

theorem packDirect_layout (v : Vehicle K) (p : Problem K) (h : Shape p) (hd : p.isDirect = true)
    (hv : v.iTime + 1 < v.nInputs) (lo hi : K) :
    ∃ es, packDirect v p lo hi = .ok es ∧ Layout v p es := by
  have hnode := packNodeDirect_ok v p h hd hv
  have hg : ∀ i ∈ nodeIndices p, ∃ b, packNodeDirect v p i = .ok b := by
    intro i hi
    have := (mem_nodeIndices p h i).1 hi
    obtain ⟨es, _, _, h1, _⟩ := hnode i this.2
    exact ⟨es, h1⟩
  have hmr : ∃ nodes, mapRes (packNodeDirect v p) (nodeIndices p) = .ok nodes := by
    classical
    refine ⟨_, mapRes_map (g := fun i => if hh : ∃ b, packNodeDirect v p i = .ok b then hh.choose else []) _ ?_⟩
    intro i hi
    have hh := hg i hi
    simp only [hh, dif_pos]
    exact hh.choose_spec
  obtain ⟨nodes, hn⟩ := hmr
  have hblk : ∀ b ∈ nodes, b.length = blockSize v p.isDirect p.controls := by
    intro b hb
    obtain ⟨k, hk, rfl⟩ := List.getElem_of_mem hb
    have hlen := (mapRes_eq_ok hn).1
    have hk' : k < (nodeIndices p).length := by omega
    obtain ⟨b', hb', hf⟩ := (mapRes_eq_ok hn).2 k _ (List.getElem?_eq_getElem hk')
    have hm := (mem_nodeIndices p h _).1 (List.getElem_mem hk')
    obtain ⟨es, _, _, h1, _, _, h4, _⟩ := hnode _ hm.2
    rw [List.getElem?_eq_getElem hk] at hb'
    simp only [Option.some.injEq] at hb'
    rw [hf] at h1
    simp only [Res.ok.injEq] at h1
    rw [hb', h1, h4]
  have hrest := restEntriesDirect_spec p.opts.controlsLb p.opts.controlsUb p.controls 0
  have hnl : nodes.length = p.nPoints - firstNode p.isClosed := by
    rw [(mapRes_eq_ok hn).1, nodeIndices_length]
  have hlen : (nodes.flatten ++ restEntriesDirect p.opts.controlsLb p.opts.controlsUb p.controls 0).length
      = nVariables v p := by
    rw [List.length_append, length_flatten_uniform _ _ hblk, hrest.1, hnl, nVariables_eq v p h]
  have hfull : nFullMesh p.controls + (v.nInputs - 1) ≤ blockSize v p.isDirect p.controls := by
    simp [blockSize, hd]; omega
  refine ⟨_, ?_, hlen, ?_, ?_, ?_, ?_⟩
  · rw [packDirect, emitDirect, hn]
    exact fillVariables_full v p lo hi _ hlen
  · intro i j row si hi hj ht hr hsi
    obtain ⟨b, hb, hf⟩ := blocks_get p hn i hi
    obtain ⟨es, row', si', h1, h2, h3, h4, h5, _⟩ := hnode i hi.2
    rw [hf] at h1; simp only [Res.ok.injEq] at h1; subst h1
    rw [hr] at h2; rw [hsi] at h3
    simp only [Option.some.injEq] at h2 h3; subst h2; subst h3
    have hlt := inputSlot_lt v hv j hj ht
    rw [inputPos, blockStart, getElem?_flatten_uniform nodes _ hblk _ _ (by omega) b hb]
    exact h5 j hj ht
  · intro i c cv hi hc hk
    obtain ⟨b, hb, hf⟩ := blocks_get p hn i hi
    obtain ⟨es, row', si', h1, h2, h3, h4, h5, h6⟩ := hnode i hi.2
    rw [hf] at h1; simp only [Res.ok.injEq] at h1; subst h1
    obtain ⟨a, ha, hb'⟩ := h6 c cv hc hk
    refine ⟨a, ha, ?_⟩
    have hlt := nFullMesh_take_lt _ c cv hc hk
    rw [fullPos, blockStart, Nat.add_assoc, getElem?_flatten_uniform nodes _ hblk _ _ (by omega) b hb]
    exact hb'
  · intro hf; rw [hd] at hf; simp at hf
  · intro c k cv hc hk hkl
    obtain ⟨a, ha, hb⟩ := hrest.2 c k cv hc hk hkl
    refine ⟨a, ha, ?_⟩
    rw [otherPos, ← hnl, Nat.add_assoc, getElem?_flatten_uniform_rest nodes _ hblk]
    simpa using hb

theorem emitDerivative_blocks (v : Vehicle K) (p : Problem K) (h : Shape p) (hd : p.isDirect = false)
    (hr : v.RatesBounded p.controls) (hv : v.iTime + 1 < v.nInputs) :
    ∃ nodes, mapRes (packNodeDerivative v p) (nodeIndices p) = .ok nodes ∧
      (∀ b ∈ nodes, b.length = blockSize v p.isDirect p.controls) ∧
      nodes.length = p.nPoints - firstNode p.isClosed := by
  have hnode := packNodeDerivative_ok v p h hd hr hv
  have hg : ∀ i ∈ nodeIndices p, ∃ b, packNodeDerivative v p i = .ok b := by
    intro i hi
    have := (mem_nodeIndices p h i).1 hi
    obtain ⟨es, _, _, h1, _⟩ := hnode i this.2
    exact ⟨es, h1⟩
  have hmr : ∃ nodes, mapRes (packNodeDerivative v p) (nodeIndices p) = .ok nodes := by
    classical
    refine ⟨_, mapRes_map (g := fun i => if hh : ∃ b, packNodeDerivative v p i = .ok b then hh.choose else []) _ ?_⟩
    intro i hi
    have hh := hg i hi
    simp only [hh, dif_pos]
    exact hh.choose_spec
  obtain ⟨nodes, hn⟩ := hmr
  refine ⟨nodes, hn, ?_, by rw [(mapRes_eq_ok hn).1, nodeIndices_length]⟩
  intro b hb
  obtain ⟨k, hk, rfl⟩ := List.getElem_of_mem hb
  have hlen := (mapRes_eq_ok hn).1
  have hk' : k < (nodeIndices p).length := by omega
  obtain ⟨b', hb', hf⟩ := (mapRes_eq_ok hn).2 k _ (List.getElem?_eq_getElem hk')
  have hm := (mem_nodeIndices p h _).1 (List.getElem_mem hk')
  obtain ⟨es, _, _, h1, _, _, h4, _⟩ := hnode _ hm.2
  rw [List.getElem?_eq_getElem hk] at hb'
  simp only [Option.some.injEq] at hb'
  rw [hf] at h1
  simp only [Res.ok.injEq] at h1
  rw [hb', h1, h4]

theorem packDerivative_layout (v : Vehicle K) (p : Problem K) (h : Shape p) (hd : p.isDirect = false)
    (hr : v.RatesBounded p.controls) (hv : v.iTime + 1 < v.nInputs) (hc : ∀ c ∈ p.controls, c.kind ≠ .constant) (lo hi : K) :
    ∃ es, packDerivative v p lo hi = .ok es ∧ Layout v p es := by
  have hnode := packNodeDerivative_ok v p h hd hr hv
  obtain ⟨nodes, hn, hblk, hnl⟩ := emitDerivative_blocks v p h hd hr hv
  have hrest := restEntriesDirect_spec p.opts.controlsLb p.opts.controlsUb p.controls 0
  have hlen : (nodes.flatten ++ restEntriesDirect p.opts.controlsLb p.opts.controlsUb p.controls 0).length
      = nVariables v p := by
    rw [List.length_append, length_flatten_uniform _ _ hblk, hrest.1, hnl, nVariables_eq v p h]
  have hfull : v.nInputs - 1 + nFullMesh p.controls + nFullMesh p.controls ≤ blockSize v p.isDirect p.controls := by
    simp [blockSize, hd]; omega
  refine ⟨_, ?_, hlen, ?_, ?_, ?_, ?_⟩
  · rw [packDerivative, emitDerivative, hn, restEntriesDerivative_eq _ _ _ _ hc]
    exact fillVariables_full v p lo hi _ hlen
  · intro i j row si hi hj ht hr hsi
    obtain ⟨b, hb, hf⟩ := blocks_get p hn i hi
    obtain ⟨es, row', si', h1, h2, h3, h4, h5, _⟩ := hnode i hi.2
    rw [hf] at h1; simp only [Res.ok.injEq] at h1; subst h1
    rw [hr] at h2; rw [hsi] at h3
    simp only [Option.some.injEq] at h2 h3; subst h2; subst h3
    have hlt := inputSlot_lt v hv j hj ht
    rw [inputPos, blockStart, getElem?_flatten_uniform nodes _ hblk _ _ (by omega) b hb]
    exact h5 j hj ht
  · intro i c cv hi hc hk
    obtain ⟨b, hb, hf⟩ := blocks_get p hn i hi
    obtain ⟨es, row', si', h1, h2, h3, h4, h5, h6, _⟩ := hnode i hi.2
    rw [hf] at h1; simp only [Res.ok.injEq] at h1; subst h1
    obtain ⟨a, ha, hb'⟩ := h6 c cv hc hk
    refine ⟨a, ha, ?_⟩
    have hlt := nFullMesh_take_lt _ c cv hc hk
    rw [fullPos, blockStart, Nat.add_assoc, getElem?_flatten_uniform nodes _ hblk _ _ (by omega) b hb]
    exact hb'
  · intro _ i c cv hi hc hk
    obtain ⟨b, hb, hf⟩ := blocks_get p hn i hi
    obtain ⟨es, row', si', h1, h2, h3, h4, h5, _, h6⟩ := hnode i hi.2
    rw [hf] at h1; simp only [Res.ok.injEq] at h1; subst h1
    obtain ⟨a, l, u, ha, hl, hu, hb'⟩ := h6 c cv hc hk
    refine ⟨a, l, u, ha, hl, hu, ?_⟩
    have hlt := nFullMesh_take_lt _ c cv hc hk
    rw [ratePos, blockStart, Nat.add_assoc, Nat.add_assoc,
      getElem?_flatten_uniform nodes _ hblk _ _ (by omega) b hb]
    rw [Nat.add_assoc] at hb'
    exact hb'
  · intro c k cv hc hk hkl
    obtain ⟨a, ha, hb⟩ := hrest.2 c k cv hc hk hkl
    refine ⟨a, ha, ?_⟩
    rw [otherPos, ← hnl, Nat.add_assoc, getElem?_flatten_uniform_rest nodes _ hblk]
    simpa using hb

theorem packNodeDerivative_bounded {v : Vehicle K} {p : Problem K} {i : Nat} {es : List (Entry K)}
    (h : packNodeDerivative v p i = .ok es) : v.RatesBounded p.controls := by
  obtain ⟨_, _, h⟩ := Res.bind_eq_ok.1 h
  obtain ⟨_, _, h⟩ := Res.bind_eq_ok.1 h
  obtain ⟨_, _, h⟩ := Res.bind_eq_ok.1 h
  obtain ⟨_, h, _⟩ := Res.bind_eq_ok.1 h
  intro c cv hc hk
  simpa using fullDerivativeEntries_bounded h c cv hc hk

/-- With a full-mesh control that has no rate bounds, the derivative form reads past the end of the
bounds. -/
theorem packDerivative_unbounded (v : Vehicle K) (p : Problem K) (h : Shape p)
    (hr : ¬ v.RatesBounded p.controls) (lo hi : K) : packDerivative v p lo hi = .ub := by
  have ne : ∀ i, i ∈ nodeIndices p → packNodeDerivative v p i = .ub := by
    intro i hi
    have hi := ((mem_nodeIndices p h i).1 hi).2
    obtain ⟨row, hrow⟩ : ∃ row, p.inputs[i]? = some row :=
      ⟨_, List.getElem?_eq_getElem (by rw [h.inputs]; exact hi)⟩
    obtain ⟨si, hs⟩ : ∃ si, p.s[i]? = some si := ⟨_, List.getElem?_eq_getElem (by rw [h.s]; exact hi)⟩
    obtain ⟨es, h1, _, _⟩ := fullEntries_ok p.opts.controlsLb p.opts.controlsUb i p.controls 0
      (fun c hc hk => by rw [h.values c hc hk]; exact hi)
    rcases h2 : fullDerivativeEntries v.dcontrolsLb v.dcontrolsUb i p.controls 0 with ds | _ | _
    · exact absurd (packNodeDerivative_bounded (v := v) (p := p) (i := i)
        (by simp [packNodeDerivative, idx, hrow, hs, h1, h2]; rfl)) hr
    · exact absurd h2 (fullDerivativeEntries_ne_throw _ _ _ _ _)
    · simp [packNodeDerivative, idx, hrow, hs, h1, h2]
  have hne : nodeIndices p ≠ [] := by
    have := nodeIndices_length p
    have h2 := h.two
    intro h0
    rw [h0] at this
    unfold firstNode at this
    simp at this
    split at this <;> omega
  rw [packDerivative, emitDerivative]
  rcases hl : nodeIndices p with _ | ⟨i, l⟩
  · exact absurd hl hne
  · simp [mapRes, ne i (by simp [hl])]

/-- With at least one constant control the derivative form writes past the end. -/
theorem packDerivative_ub (v : Vehicle K) (p : Problem K) (h : Shape p) (hd : p.isDirect = false)
    (hv : v.iTime + 1 < v.nInputs) (c : CV K) (hm : c ∈ p.controls) (hc : c.kind = .constant) (lo hi : K) :
    packDerivative v p lo hi = .ub := by
  by_cases hr : v.RatesBounded p.controls
  swap
  · exact packDerivative_unbounded v p h hr lo hi
  obtain ⟨nodes, hn, hblk, hnl⟩ := emitDerivative_blocks v p h hd hr hv
  have hpos : 0 < p.controls.countP (fun c => c.kind = .constant) :=
    List.countP_pos_iff.2 ⟨c, hm, by simp [hc]⟩
  rw [packDerivative, emitDerivative, hn]
  simp only [Res.bind_ok, fillVariables]
  rw [storeAll_ub]
  · rfl
  · simp
  · rw [List.length_append, length_flatten_uniform _ _ hblk, restEntriesDerivative_length _ _ _ _ h.const1,
      hnl, List.length_replicate, nVariables_eq v p h]
    omega

end

end Verif.Transcription
