import Verif.Spec.LapStart
import Verif.Lemmas.LapRestart
import Mathlib.Tactic.Linarith
import Mathlib.Tactic.Ring
import Mathlib.Tactic.FieldSimp

/-! Lemmas for the start line of a closed lap. -/

set_option autoImplicit false

namespace Verif.Transcription

open Verif.Control

/-- Node `i` counted from node `m` on. -/
def turn (n m i : Nat) : Nat := if i + m < n then i + m else i + m - n

theorem turn_lt {n m i : Nat} (hi : i < n) (hm : m ≤ n) : turn n m i < n := by
  unfold turn; split <;> omega

theorem turn_back {n m i : Nat} (hi : i < n) (hm : m ≤ n) : turn n m (turn n (n - m) i) = i := by
  unfold turn; split <;> split <;> omega

theorem turn_back' {n m i : Nat} (hi : i < n) (hm : m ≤ n) : turn n (n - m) (turn n m i) = i := by
  unfold turn; split <;> split <;> omega

theorem turn_mod {n m i : Nat} (hi : i < n) (hm : m ≤ n) : (i + m) % n = turn n m i := by
  unfold turn
  split
  · rename_i h; exact Nat.mod_eq_of_lt h
  · rename_i h
    rw [Nat.mod_eq_sub_mod (by omega), Nat.mod_eq_of_lt (by omega)]

theorem rotate_at {α : Type*} (l : List α) {n m i : Nat} (hl : l.length = n) (hi : i < n) (hm : m ≤ n) :
    (l.rotate m)[i]? = l[turn n m i]? := by
  rw [List.getElem?_rotate (by omega), hl, turn_mod hi hm]

theorem sum_turn {M : Type*} [AddCommMonoid M] {n m : Nat} (hm : m ≤ n) (f : Nat → M) :
    ∑ e ∈ Finset.range n, f (turn n m e) = ∑ e ∈ Finset.range n, f e := by
  refine Finset.sum_nbij' (turn n m) (turn n (n - m)) ?_ ?_ ?_ ?_ ?_
  · intro e he; exact Finset.mem_range.2 (turn_lt (Finset.mem_range.1 he) hm)
  · intro e he; exact Finset.mem_range.2 (turn_lt (Finset.mem_range.1 he) (by omega))
  · intro e he; exact turn_back' (Finset.mem_range.1 he) hm
  · intro e he; exact turn_back (Finset.mem_range.1 he) hm
  · intro e _; rfl

section
variable {K : Type*} [Field K] [LinearOrder K]

/-- What is needed of two vehicles and problems. -/
structure Moved (v v' : Vehicle K) (p p' : Problem K) (m : Nat) : Prop where
  bound : m ≤ p.nPoints
  nInputs : v'.nInputs = v.nInputs
  iTime : v'.iTime = v.iTime
  sTime : v'.sTime = v.sTime
  nExtra : v'.nExtra = v.nExtra
  timeIds : v'.timeIds = v.timeIds
  algIds : v'.algIds = v.algIds
  defaults : v'.controlsDef = v.controlsDef
  rateLb : v'.dcontrolsLb = v.dcontrolsLb
  rateUb : v'.dcontrolsUb = v.dcontrolsUb
  closed : p.isClosed = true
  closed' : p'.isClosed = true
  isDirect : p'.isDirect = p.isDirect
  nPoints : p'.nPoints = p.nPoints
  nElements : p.nElements = p.nPoints
  nElements' : p'.nElements = p.nPoints
  size : p.s.length = p.nPoints
  size' : p'.s.length = p.nPoints
  opts : p'.opts = p.opts
  quantities : p'.quantities = p.quantities
  nControls : p'.controls.length = p.controls.length
  frames : ∀ (c : Nat) (cv cv' : CV K), p.controls[c]? = some cv → p'.controls[c]? = some cv' → SameFrame cv cv'
  plain : ∀ c ∈ p.controls, c.kind ≠ .hypermesh
  full : ∀ c ∈ p.controls, c.kind = .fullMesh → c.controls.length = p.nPoints ∧
    (p.isDirect = false → c.dcontrolsDt.length = p.nPoints)
  eval : ∀ (i : Nat) (s s' : K), i < p.nPoints → p.s[turn p.nPoints m i]? = some s → p'.s[i]? = some s' →
    (∀ row u, v'.eval row u s' = v.eval row u s) ∧ v'.leftLimit s' = v.leftLimit s ∧ v'.rightLimit s' = v.rightLimit s ∧
    v'.extraLb s' = v.extraLb s ∧ v'.extraUb s' = v.extraUb s
  element : ∀ i, i < p.nPoints → (if i + 1 < p.nPoints then p'.s.getD (i + 1) 0 - p'.s.getD i 0
      else v'.trackLength - p'.s.getD i 0)
    = if turn p.nPoints m i + 1 < p.nPoints then p.s.getD (turn p.nPoints m i + 1) 0 - p.s.getD (turn p.nPoints m i) 0
      else v.trackLength - p.s.getD (turn p.nPoints m i) 0

variable {v v' : Vehicle K} {p p' : Problem K} {m : Nat} {ins : List (Row K)} {ctrls : List (CV K)} {node : Nat → Node K}

/-- The other way round. -/
theorem Moved.symm (M : Moved v v' p p' m) : Moved v' v p' p (p.nPoints - m) where
  bound := by rw [M.nPoints]; omega
  nInputs := M.nInputs.symm
  iTime := M.iTime.symm
  sTime := M.sTime.symm
  nExtra := M.nExtra.symm
  timeIds := M.timeIds.symm
  algIds := M.algIds.symm
  defaults := M.defaults.symm
  rateLb := M.rateLb.symm
  rateUb := M.rateUb.symm
  closed := M.closed'
  closed' := M.closed
  isDirect := M.isDirect.symm
  nPoints := M.nPoints.symm
  nElements := M.nElements'.trans M.nPoints.symm
  nElements' := M.nElements.trans M.nPoints.symm
  size := M.size'.trans M.nPoints.symm
  size' := M.size.trans M.nPoints.symm
  opts := M.opts.symm
  quantities := M.quantities.symm
  nControls := M.nControls.symm
  frames := by
    intro c cv cv' h h'
    have := M.frames c cv' cv h' h
    exact ⟨this.kind.symm, this.mesh.symm, this.diss.symm, this.nValues.symm, this.nRates.symm⟩
  plain := by
    intro c hc
    obtain ⟨k, hk⟩ := List.getElem?_of_mem hc
    have hlt : k < p.controls.length := M.nControls ▸ (List.getElem?_eq_some_iff.1 hk).1
    have := M.frames k _ c (List.getElem?_eq_getElem hlt) hk
    rw [this.kind]
    exact M.plain _ (List.getElem_mem hlt)
  full := by
    intro c hc hf
    obtain ⟨k, hk⟩ := List.getElem?_of_mem hc
    have hlt : k < p.controls.length := M.nControls ▸ (List.getElem?_eq_some_iff.1 hk).1
    have := M.frames k _ c (List.getElem?_eq_getElem hlt) hk
    rw [this.nValues, this.nRates, M.nPoints, M.isDirect]
    exact M.full _ (List.getElem_mem hlt) (this.kind.symm.trans hf)
  eval := by
    intro i s s' hi hs hs'
    rw [M.nPoints] at hi hs
    have := M.eval (turn p.nPoints (p.nPoints - m) i) s' s (turn_lt hi (by omega)) (by rw [turn_back hi M.bound]; exact hs') hs
    exact ⟨fun row u => (this.1 row u).symm, this.2.1.symm, this.2.2.1.symm, this.2.2.2.1.symm, this.2.2.2.2.symm⟩
  element := by
    intro i hi
    rw [M.nPoints] at hi ⊢
    have := M.element (turn p.nPoints (p.nPoints - m) i) (turn_lt hi (by omega))
    rw [turn_back hi M.bound] at this
    exact this.symm

/-- The nodes from node `m` on. -/
def movedNodes (p p' : Problem K) (m : Nat) (node : Nat → Node K) (i : Nat) : Node K :=
  ⟨p'.s.getD i 0, (node (turn p.nPoints m i)).eq⟩

theorem Moved.right (M : Moved v v' p p' m) {e : Nat} (he : e < p.nPoints) :
    turn p.nPoints m (rightNode p' e) = rightNode p (turn p.nPoints m e) := by
  have := M.bound
  simp only [rightNode, M.nPoints, turn]
  split_ifs <;> omega

theorem Moved.right_lt (M : Moved v v' p p' m) {e : Nat} (he : e < p.nPoints) : rightNode p' e < p.nPoints := by
  simp only [rightNode, M.nPoints]
  split <;> omega

theorem Moved.element_lt (M : Moved v v' p p' m) {e : Nat} (he : e < p.nPoints) : turn p.nPoints m e < p.nElements := by
  rw [M.nElements]
  exact turn_lt he M.bound

theorem nodes_getD {st : Loaded K} (h : EvaluatedNodes v p st node) {i : Nat} (hi : i < p.nPoints) :
    (node i).s = p.s.getD i 0 := by
  rw [List.getD_eq_getElem?_getD, node_s h hi, Option.getD_some]

theorem Moved.length (M : Moved v v' p p' m) {st : Loaded K} (h : EvaluatedNodes v p st node) {e : Nat} (he : e < p.nPoints) :
    elementLength v' p' (movedNodes p p' m node) e = elementLength v p node (turn p.nPoints m e) := by
  have := M.element e he
  simp only [elementLength, movedNodes, M.nPoints]
  rw [this, nodes_getD h (turn_lt he M.bound)]
  split
  · rename_i hlt
    rw [nodes_getD h hlt]
  · rfl

theorem Moved.control_at (M : Moved v v' p p' m) (hf : FitsProblem p ⟨ins, ctrls⟩) {c : Nat} {cv : CV K}
    (hc : (ctrls.map (movedControl m))[c]? = some cv) :
    ∃ d, ctrls[c]? = some d ∧ cv = movedControl m d ∧ cv.kind = d.kind ∧ cv.dissipation = d.dissipation ∧
      d.kind ≠ .hypermesh ∧ (cv.kind = .fullMesh → d.controls.length = p.nPoints ∧
        (p.isDirect = false → d.dcontrolsDt.length = p.nPoints)) := by
  rw [List.getElem?_map, Option.map_eq_some_iff] at hc
  obtain ⟨d, hd, rfl⟩ := hc
  have hlt : c < p.controls.length := hf.controls ▸ (List.getElem?_eq_some_iff.1 hd).1
  have hfr := hf.frames c _ d (List.getElem?_eq_getElem hlt) hd
  have hmem := List.getElem_mem hlt
  have hk : (movedControl m d).kind = d.kind := by unfold movedControl; split <;> rfl
  refine ⟨d, hd, rfl, hk, ?_, ?_, fun h => ?_⟩
  · unfold movedControl; split <;> rfl
  · rw [hfr.kind]; exact M.plain _ hmem
  · rw [hk, hfr.kind] at h
    rw [hfr.nValues, hfr.nRates]
    exact M.full _ hmem h

theorem movedControl_full {d : CV K} (hk : (movedControl m d).kind = .fullMesh) :
    movedControl m d = { d with controls := d.controls.rotate m, dcontrolsDt := d.dcontrolsDt.rotate m } := by
  unfold movedControl at hk ⊢
  split
  · rfl
  · rename_i h
    rw [if_neg h] at hk
    exact absurd hk h

theorem Moved.value (M : Moved v v' p p' m) {d : CV K} (hk : (movedControl m d).kind = .fullMesh)
    (hl : d.controls.length = p.nPoints) {i : Nat} (hi : i < p.nPoints) :
    valueAt (movedControl m d) i = valueAt d (turn p.nPoints m i) := by
  simp only [valueAt, movedControl_full hk, List.getD_eq_getElem?_getD]
  rw [rotate_at _ hl hi M.bound]

theorem Moved.rate (M : Moved v v' p p' m) {d : CV K} (hk : (movedControl m d).kind = .fullMesh)
    (hl : d.dcontrolsDt.length = p.nPoints) {i : Nat} (hi : i < p.nPoints) :
    rateAt (movedControl m d) i = rateAt d (turn p.nPoints m i) := by
  simp only [rateAt, movedControl_full hk, List.getD_eq_getElem?_getD]
  rw [rotate_at _ hl hi M.bound]

theorem Moved.nodes (M : Moved v v' p p' m) (hf : FitsProblem p ⟨ins, ctrls⟩) (h : EvaluatedNodes v p ⟨ins, ctrls⟩ node) :
    EvaluatedNodes v' p' ⟨ins.rotate m, ctrls.map (movedControl m)⟩ (movedNodes p p' m node) := by
  intro i hi
  rw [M.nPoints] at hi
  obtain ⟨row, si, u, h1, h2, h3, h4, h5⟩ := h _ (turn_lt hi M.bound)
  have hs : p'.s[i]? = some (p'.s.getD i 0) := by
    rw [List.getD_eq_getElem?_getD, List.getElem?_eq_getElem (by rw [M.size']; exact hi), Option.getD_some]
  refine ⟨row, p'.s.getD i 0, u, (rotate_at _ hf.inputs hi M.bound).trans h1, hs, by simpa using h3, ?_, ?_⟩
  · intro c cv d a k1 k2 k3
    obtain ⟨e, he, rfl, e1, e2, e3, e4⟩ := M.control_at hf k1
    rw [M.defaults] at k2
    have := h4 c e d a he k2 k3
    unfold ExpectedControl at this ⊢
    rw [e1]
    cases hk : e.kind <;> simp only [hk] at this ⊢
    · exact this
    · rw [show movedControl m e = e from if_neg (by rw [hk]; decide)]
      exact this
    · exact (e3 hk).elim
    · rw [movedControl_full (e1.trans hk), rotate_at _ (e4 (e1.trans hk)).1 hi M.bound]
      exact this
  · rw [movedNodes, h5, (M.eval i si _ hi h2 hs).1]

theorem dtds_moved (M : Moved v v' p p' m) (e : Eqs K) : dtds v' e = dtds v e := by
  simp only [dtds, M.sTime]

theorem Moved.duration (M : Moved v v' p p' m) {st : Loaded K} (h : EvaluatedNodes v p st node) :
    lapDuration v' p' (movedNodes p p' m node) = lapDuration v p node := by
  simp only [lapDuration, quadrature, quadratureTo, M.nElements, M.nElements', M.opts]
  refine Eq.trans ?_ (sum_turn M.bound _)
  refine Finset.sum_congr rfl fun e he => ?_
  have he := Finset.mem_range.1 he
  rw [M.length h he, ← M.right he, dtds_moved M, dtds_moved M]
  rfl

theorem Moved.integral [CharZero K] (M : Moved v v' p p' m) (hσ : p.opts.sigma = 1 / 2) {st : Loaded K}
    (h : EvaluatedNodes v p st node) (q : Nat) :
    codedIntegral v' p' (movedNodes p p' m node) q = codedIntegral v p node q := by
  have half : (1 - 1 / 2 : K) = 1 / 2 := by
    field_simp
    norm_num
  have e1 : ∀ (v : Vehicle K) (p : Problem K) (nd : Nat → Node K) (e : Nat), p.opts.sigma = 1 / 2 →
      (if e + 1 < p.nPoints then
        (1 - p.opts.sigma) * integrand v q (nd e) + p.opts.sigma * integrand v q (nd (rightNode p e))
      else (1 - p.opts.sigma) * integrand v q (nd (rightNode p e)) + p.opts.sigma * integrand v q (nd e))
      = 1 / 2 * integrand v q (nd e) + 1 / 2 * integrand v q (nd (rightNode p e)) := by
    intro v p nd e hs
    rw [hs, half]
    split
    · rfl
    · exact add_comm _ _
  have hσ' : p'.opts.sigma = 1 / 2 := by rw [M.opts]; exact hσ
  simp only [codedIntegral, M.nElements, M.nElements']
  refine Eq.trans ?_ (sum_turn M.bound _)
  refine Finset.sum_congr rfl fun e he => ?_
  have he := Finset.mem_range.1 he
  rw [e1 v' p' _ e hσ', e1 v p node _ hσ, M.length h he, ← M.right he]
  simp only [integrand, dtds_moved M, movedNodes]

theorem overFullMesh_map (f g : CV K → K) (h : CV K → CV K) (cs : List (CV K)) (hk : ∀ c ∈ cs, (h c).kind = c.kind)
    (hc : ∀ c ∈ cs, c.kind = .fullMesh → f (h c) = g c) : overFullMesh f (cs.map h) = overFullMesh g cs := by
  induction cs with
  | nil => rfl
  | cons c cs ih =>
    have ih := ih (fun d hd => hk d (List.mem_cons_of_mem _ hd)) (fun d hd => hc d (List.mem_cons_of_mem _ hd))
    simp only [overFullMesh, List.map_cons, List.filter_cons, hk c List.mem_cons_self] at ih ⊢
    by_cases h0 : c.kind = .fullMesh
    · simp only [h0, decide_true, if_true, List.map_cons, List.sum_cons]
      rw [hc c List.mem_cons_self h0]
      exact congrArg _ ih
    · simp only [h0, decide_false, Bool.false_eq_true, if_false]
      exact ih

theorem Moved.smoothing (M : Moved v v' p p' m) (hf : FitsProblem p ⟨ins, ctrls⟩) {st : Loaded K}
    (h : EvaluatedNodes v p st node)
    (hd : p.isDirect = true ∨ ∀ c ∈ p.controls, c.kind = .fullMesh → c.dissipation = 0) :
    Transcription.smoothing v' p' (movedNodes p p' m node) (ctrls.map (movedControl m))
      = Transcription.smoothing v p node ctrls := by
  have hkind : ∀ c ∈ ctrls, (movedControl m c).kind = c.kind := by
    intro c _
    unfold movedControl; split <;> rfl
  have hmem : ∀ c ∈ ctrls, c.kind = .fullMesh → c.controls.length = p.nPoints ∧
      ∃ d ∈ p.controls, d.kind = .fullMesh ∧ c.dissipation = d.dissipation := by
    intro c hc hk
    obtain ⟨d, hd, hfr⟩ := hf.mem (cv' := c) hc
    have hdk : d.kind = .fullMesh := hfr.kind.symm.trans hk
    exact ⟨hfr.nValues.trans (M.full d hd hdk).1, d, hd, hdk, hfr.diss⟩
  have hdiss : ∀ c : CV K, (movedControl m c).dissipation = c.dissipation := by
    intro c
    unfold movedControl; split <;> rfl
  unfold Transcription.smoothing
  rw [M.isDirect]
  split
  · refine overFullMesh_map _ _ _ _ hkind fun c hc hk => ?_
    simp only [slopePenalty, M.nElements, M.nElements']
    refine Eq.trans ?_ (sum_turn M.bound _)
    refine Finset.sum_congr rfl fun e he => ?_
    have he := Finset.mem_range.1 he
    have hk' := (hkind c hc).trans hk
    rw [M.length h he, ← M.right he, M.value hk' (hmem c hc hk).1 he, M.value hk' (hmem c hc hk).1 (M.right_lt he), hdiss]
  · rename_i hdir
    have hz := hd.resolve_left hdir
    refine overFullMesh_map _ _ _ _ hkind fun c hc hk => ?_
    obtain ⟨-, d, hd, hdk, e⟩ := hmem c hc hk
    simp [codedRatePenalty, hdiss, e, hz d hd hdk]

theorem Moved.fits (M : Moved v v' p p' m) (h : FitsProblem p ⟨ins, ctrls⟩) :
    FitsProblem p' ⟨ins.rotate m, ctrls.map (movedControl m)⟩ where
  inputs := by rw [M.nPoints, List.length_rotate]; exact h.inputs
  controls := by rw [M.nControls, List.length_map]; exact h.controls
  frames := by
    intro c cv cv' h1 h2
    have hlt : c < p.controls.length := M.nControls ▸ (List.getElem?_eq_some_iff.1 h1).1
    have a := M.frames c _ cv (List.getElem?_eq_getElem hlt) h1
    simp only [List.getElem?_map, Option.map_eq_some_iff] at h2
    obtain ⟨d, hd, rfl⟩ := h2
    have b := h.frames c _ d (List.getElem?_eq_getElem hlt) hd
    unfold movedControl
    split
    · exact ⟨b.kind.trans a.kind.symm, b.mesh.trans a.mesh.symm, b.diss.trans a.diss.symm,
        (List.length_rotate ..).trans (b.nValues.trans a.nValues.symm),
        (List.length_rotate ..).trans (b.nRates.trans a.nRates.symm)⟩
    · exact ⟨b.kind.trans a.kind.symm, b.mesh.trans a.mesh.symm, b.diss.trans a.diss.symm,
        b.nValues.trans a.nValues.symm, b.nRates.trans a.nRates.symm⟩

theorem Moved.optimised (M : Moved v v' p p' m) {i : Nat} (h : Optimised p' i) :
    i < p.nPoints ∧ Optimised p (turn p.nPoints m i) := by
  have hi : i < p.nPoints := M.nPoints ▸ h.2
  exact ⟨hi, by rw [M.closed]; exact Nat.zero_le _, turn_lt hi M.bound⟩

theorem Moved.obeys [CharZero K] (M : Moved v v' p p' m) (hf : FitsProblem p ⟨ins, ctrls⟩)
    (hn : EvaluatedNodes v p ⟨ins, ctrls⟩ node)
    (hq : p.opts.sigma = 1 / 2 ∨ ∀ q ∈ p.quantities, q.restrict = false) {tolB tolC : K}
    (h : Obeys v p tolB tolC ins ctrls node) :
    Obeys v' p' tolB tolC (ins.rotate m) (ctrls.map (movedControl m)) (movedNodes p p' m node) where
  lateral := by
    intro i row si hi hr hs
    obtain ⟨hi, ho⟩ := M.optimised hi
    rw [rotate_at _ hf.inputs hi M.bound] at hr
    have hlt : turn p.nPoints m i < p.s.length := M.size ▸ ho.2
    obtain ⟨-, e1, e2, -, -⟩ := M.eval i _ si hi (List.getElem?_eq_getElem hlt) hs
    rw [e1, e2, M.iTime]
    exact h.lateral _ row _ ho hr (List.getElem?_eq_getElem hlt)
  inputs := by
    intro i j row hi hj h1 h2 hr
    obtain ⟨hi, ho⟩ := M.optimised hi
    rw [rotate_at _ hf.inputs hi M.bound] at hr
    rw [M.opts]
    rw [M.nInputs] at hj
    rw [M.iTime] at h1 h2
    exact h.inputs _ j row ho hj h1 h2 hr
  full := by
    intro i c cv a hi hc hk ha
    obtain ⟨hi, ho⟩ := M.optimised hi
    obtain ⟨d, hd, rfl, e1, -, -, e4⟩ := M.control_at hf hc
    rw [M.opts]
    rw [movedControl_full hk, rotate_at _ (e4 hk).1 hi M.bound] at ha
    exact h.full _ c d a ho hd (e1.symm.trans hk) ha
  other := by
    intro c k cv a hc hk ha
    obtain ⟨d, hd, rfl, e1, -, -, -⟩ := M.control_at hf hc
    rw [M.opts]
    rw [e1] at hk
    rw [show movedControl m d = d from if_neg (by rcases hk with hk | hk <;> rw [hk] <;> decide)] at ha
    exact h.other c k d a hd hk ha
  rates := by
    intro hdir i c cv a l u hi hc hk ha hl hu
    obtain ⟨hi, ho⟩ := M.optimised hi
    obtain ⟨d, hd, rfl, e1, -, -, e4⟩ := M.control_at hf hc
    rw [M.isDirect] at hdir
    rw [M.rateLb] at hl
    rw [M.rateUb] at hu
    rw [movedControl_full hk, rotate_at _ ((e4 hk).2 hdir) hi M.bound] at ha
    exact h.rates hdir _ c d a l u ho hd (e1.symm.trans hk) ha hl hu
  dynamics := by
    intro e q he hq
    rw [M.nElements'] at he
    rw [M.timeIds] at hq
    have := h.dynamics _ q (M.element_lt he) hq
    rw [M.length hn he, M.opts]
    simp only [movedNodes, M.right he]
    exact this
  algebraic := by
    intro e q he hq
    rw [M.nElements'] at he
    rw [M.algIds] at hq
    have := h.algebraic _ q (M.element_lt he) hq
    simp only [movedNodes, M.right he, dtds_moved M]
    exact this
  extra := by
    intro e k sr he hk hs
    rw [M.nElements'] at he
    rw [M.nExtra] at hk
    have hr := M.right_lt he
    obtain ⟨s, hs'⟩ : ∃ s, p.s[turn p.nPoints m (rightNode p' e)]? = some s :=
      ⟨_, List.getElem?_eq_getElem (by rw [M.size]; exact turn_lt hr M.bound)⟩
    obtain ⟨-, -, -, e1, e2⟩ := M.eval _ _ sr hr hs' hs
    rw [e1, e2]
    have hs := hs'
    rw [M.right he] at hs
    have := h.extra _ k _ (M.element_lt he) hk hs
    simp only [movedNodes, M.right he]
    exact this
  integrated := by
    intro hdir e c cv he hc hk
    obtain ⟨d, hd, rfl, e1, -, -, e4⟩ := M.control_at hf hc
    rw [M.nElements'] at he
    rw [M.isDirect] at hdir
    have hr := M.right_lt he
    have := h.integrated hdir _ c d (M.element_lt he) hd (e1.symm.trans hk)
    rw [M.length hn he, M.opts, M.value hk (e4 hk).1 he, M.value hk (e4 hk).1 hr, M.rate hk ((e4 hk).2 hdir) he,
      M.rate hk ((e4 hk).2 hdir) hr, M.right he]
    simp only [movedNodes, M.right he, dtds_moved M]
    exact this
  quantities := by
    intro k q hk hr
    rw [M.quantities] at hk
    rcases hq with hσ | hno
    · rw [M.integral hσ hn]
      exact h.quantities k q hk hr
    · rw [hno q (List.mem_of_getElem? hk)] at hr
      cases hr

end

end Verif.Transcription
