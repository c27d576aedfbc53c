import Verif.Lemmas.LapStart
import Verif.Props.LapMirror

/-! Property theorems C250: the start line of a closed lap. -/

set_option autoImplicit false

namespace Verif.Transcription

open Verif.Control

section
variable {K : Type*} [Field K] [LinearOrder K] [IsStrictOrderedRing K]

theorem fromOrigin_fromLine {L a s : K} (h0 : 0 ≤ s) (hL : s < L) : fromOrigin L a (fromLine L a s) = s := by
  unfold fromLine
  split
  · rw [fromOrigin, sub_add_cancel, if_pos hL]
  · rw [fromOrigin, sub_add_cancel, if_neg (by linarith)]
    ring

/-- The mesh of an accepted closed request. -/
theorem mesh_facts {lowest max : K} {v : Vehicle K} {r : Request K} {p : Problem K} (hp : prepare lowest max v r = .ok p)
    (hcl : r.isClosed = true) (hs : r.s.Pairwise (· < ·)) (h0 : r.s[0]? = some 0) :
    p.s = r.s ∧ ∀ s ∈ r.s, 0 ≤ s ∧ s < v.trackLength := by
  obtain ⟨ha, hg⟩ := prepare_ok hp
  have e : r.s = 0 :: r.s.tail := by
    rcases h : r.s with _ | ⟨x, l⟩
    · rw [h] at h0; simp at h0
    · rw [h] at h0; simp at h0; simp [h0]
  refine ⟨?_, fun s hm => ⟨?_, ?_⟩⟩
  · rw [hg.s, hcl, if_pos rfl, ← e]
  · rw [e] at hs hm
    rcases List.mem_cons.1 hm with rfl | hm
    · exact le_rfl
    · exact ((List.pairwise_cons.1 hs).1 s hm).le
  · obtain ⟨b, hb⟩ : ∃ b, r.s.getLast? = some b := by
      rw [e]; exact ⟨_, List.getLast?_eq_some_getLast (List.cons_ne_nil _ _)⟩
    have h1 := (ha.closedEnds hcl 0 b (by rw [e]; rfl) hb).2
    have h2 : s ≤ b := by
      obtain ⟨i, hi⟩ := List.getElem?_of_mem hm
      obtain ⟨hlt, hi⟩ := List.getElem?_eq_some_iff.1 hi
      rw [List.getLast?_eq_getElem?, List.getElem?_eq_some_iff] at hb
      obtain ⟨hlt', hb⟩ := hb
      rcases Nat.lt_or_ge i (r.s.length - 1) with h | h
      · rw [← hi, ← hb]
        exact (List.pairwise_iff_getElem.1 hs i _ hlt hlt' h).le
      · have : i = r.s.length - 1 := by omega
        subst this
        rw [← hi, ← hb]
    have h3 : (0 : K) < 1 / 10 ^ 10 := by positivity
    linarith

theorem moved_s {L a : K} {m n : Nat} {s : List K} (hn : s.length = n) (hm : m ≤ n) {i : Nat} (hi : i < n) :
    ((s.rotate m).map (fromLine L a))[i]? = some (fromLine L a (s.getD (turn n m i) 0)) := by
  have hlt : turn n m i < s.length := by rw [hn]; exact turn_lt hi hm
  rw [List.getElem?_map, rotate_at _ hn hi hm, List.getD_eq_getElem?_getD, List.getElem?_eq_getElem hlt]
  rfl

/-- The two problems. -/
theorem moved_problem {lowest max : K} {v : Vehicle K} {r : Request K} {p p' : Problem K} {a : K} {m : Nat}
    (hp : prepare lowest max v r = .ok p)
    (hp' : prepare lowest max (movedVehicle v a) (movedRequest v.trackLength a m r) = .ok p')
    (hcl : r.isClosed = true) (hs : r.s.Pairwise (· < ·)) (h0 : r.s[0]? = some 0) (ha : r.s[m]? = some a)
    (hplain : ∀ c ∈ r.controls, c.kind ≠ .hypermesh) (hnd : v.integralNames.Nodup) : Moved v (movedVehicle v a) p p' m := by
  obtain ⟨hacc, hg⟩ := prepare_ok hp
  obtain ⟨hacc', hg'⟩ := prepare_ok hp'
  obtain ⟨hps, hrange⟩ := mesh_facts hp hcl hs h0
  have hm : m < r.s.length := (List.getElem?_eq_some_iff.1 ha).1
  have hn : p.nPoints = r.s.length := hg.nPoints
  have hn' : p'.nPoints = r.s.length := by rw [hg'.nPoints]; simp [movedRequest]
  have hget : ∀ j, j < r.s.length → r.s.getD j 0 ∈ r.s := by
    intro j hj
    rw [List.getD_eq_getElem?_getD, List.getElem?_eq_getElem hj]
    exact List.getElem_mem hj
  have hmono : ∀ i j, i < j → j < r.s.length → r.s.getD i 0 < r.s.getD j 0 := by
    intro i j hij hj
    rw [List.getD_eq_getElem?_getD, List.getD_eq_getElem?_getD, List.getElem?_eq_getElem hj,
      List.getElem?_eq_getElem (by omega)]
    exact List.pairwise_iff_getElem.1 hs i j _ _ hij
  have ham : r.s.getD m 0 = a := by rw [List.getD_eq_getElem?_getD, ha]; rfl
  have h00 : r.s.getD 0 0 = 0 := by rw [List.getD_eq_getElem?_getD, h0]; rfl
  have hps' : p'.s = (r.s.rotate m).map (fromLine v.trackLength a) := by
    have e : ((r.s.rotate m).map (fromLine v.trackLength a))[0]? = some 0 := by
      rw [moved_s rfl hm.le (by omega), show turn r.s.length m 0 = m by unfold turn; split <;> omega, ham]
      simp [fromLine]
    rw [hg'.s]
    show (if r.isClosed = true then _ else _) = _
    rw [if_pos hcl]
    show 0 :: ((r.s.rotate m).map (fromLine v.trackLength a)).tail = _
    rcases h : (r.s.rotate m).map (fromLine v.trackLength a) with _ | ⟨x, l⟩
    · rw [h] at e; simp at e
    · rw [h] at e; simp at e; simp [e]
  have hgetD' : ∀ i, i < r.s.length → p'.s.getD i 0 = fromLine v.trackLength a (r.s.getD (turn r.s.length m i) 0) := by
    intro i hi
    rw [List.getD_eq_getElem?_getD, hps', moved_s rfl hm.le hi]
    rfl
  refine { bound := by omega, nInputs := rfl, iTime := rfl, sTime := rfl, nExtra := rfl, timeIds := rfl, algIds := rfl,
           defaults := rfl, rateLb := rfl, rateUb := rfl, closed := hg.isClosed.trans hcl, closed' := hg'.isClosed.trans hcl,
           isDirect := hg'.isDirect.trans hg.isDirect.symm, nPoints := hn'.trans hn.symm, nElements := ?_, nElements' := ?_,
           size := by rw [hps, hn], size' := by rw [hps', hn]; simp, opts := hg'.opts.trans hg.opts.symm, quantities := ?_,
           nControls := by rw [hg'.controls, hg.controls]; simp [movedRequest], frames := ?_, plain := ?_, full := ?_,
           eval := ?_, element := ?_ }
  · rw [hg.nElements, hcl, if_pos rfl, hn]
  · rw [hg'.nElements, show (movedRequest v.trackLength a m r).isClosed = true from hcl, if_pos rfl, hn]
    simp [movedRequest]
  · refine List.ext_getElem? fun k => ?_
    rcases Nat.lt_or_ge k v.integralNames.length with hk | hk
    · have hnm := List.getElem?_eq_getElem hk
      rw [hg.quantities hnd k _ hnm, hg'.quantities hnd k _ hnm]
      rfl
    · rw [List.getElem?_eq_none (by rw [hg'.nQuantities]; exact hk), List.getElem?_eq_none (by rw [hg.nQuantities]; exact hk)]
  · intro c cv cv' h1 h2
    rw [hg.controls] at h1
    rw [hg'.controls] at h2
    simp only [movedRequest, List.getElem?_map, Option.map_eq_some_iff] at h1 h2
    obtain ⟨d, hd, rfl⟩ := h1
    obtain ⟨_, ⟨d', hd', rfl⟩, rfl⟩ := h2
    obtain rfl := Option.some.inj (hd.symm.trans hd')
    unfold movedControl
    split
    · exact ⟨rfl, rfl, rfl, List.length_rotate .., List.length_rotate ..⟩
    · exact ⟨rfl, rfl, rfl, rfl, rfl⟩
  · intro c hc
    rw [hg.controls] at hc
    obtain ⟨d, hd, rfl⟩ := List.mem_map.1 hc
    exact hplain d hd
  · intro c hc hk
    rw [hg.controls] at hc
    obtain ⟨d, hd, rfl⟩ := List.mem_map.1 hc
    obtain ⟨e1, e2⟩ := hacc.full d hd hk
    refine ⟨e1.trans hn.symm, fun hdir => ?_⟩
    rw [hg.isDirect] at hdir
    rw [hdir] at e2
    exact e2.trans hn.symm
  · intro i s s' hi h1 h2
    rw [hn] at hi h1
    rw [hps] at h1
    rw [hps', moved_s rfl hm.le hi, List.getD_eq_getElem?_getD, h1] at h2
    have hr := hrange s (List.mem_of_getElem? h1)
    have : fromOrigin v.trackLength a s' = s := by
      rw [← Option.some.inj h2]
      exact fromOrigin_fromLine hr.1 hr.2
    simp only [movedVehicle, this]
    simp
  · intro i hi
    rw [hn] at hi ⊢
    rw [hps]
    have before : ∀ j, j < m → fromLine v.trackLength a (r.s.getD j 0) = r.s.getD j 0 + v.trackLength - a := by
      intro j hj
      rw [fromLine, if_neg]
      rw [← ham, not_le]
      exact hmono j m hj hm
    have after : ∀ j, m ≤ j → j < r.s.length → fromLine v.trackLength a (r.s.getD j 0) = r.s.getD j 0 - a := by
      intro j hj hj'
      rw [fromLine, if_pos]
      rw [← ham]
      rcases Nat.eq_or_lt_of_le hj with rfl | h
      · exact le_rfl
      · exact (hmono m j h hj').le
    have e1 : (movedVehicle v a).trackLength = v.trackLength := rfl
    rw [e1, hgetD' i hi]
    by_cases c1 : i + 1 < r.s.length
    · rw [if_pos c1, hgetD' (i + 1) c1]
      by_cases c2 : i + 1 + m < r.s.length
      · have t1 : turn r.s.length m i = i + m := if_pos (by omega)
        have t2 : turn r.s.length m (i + 1) = i + m + 1 := by unfold turn; split <;> omega
        rw [t1, t2, if_pos (by omega), after _ (by omega) (by omega), after _ (by omega) (by omega)]
        ring
      · by_cases c3 : i + m < r.s.length
        · have t1 : turn r.s.length m i = i + m := if_pos (by omega)
          have t2 : turn r.s.length m (i + 1) = 0 := (if_neg (by omega)).trans (by omega)
          rw [t1, t2, if_neg (by omega), after (i + m) (by omega) (by omega), before 0 (by omega), h00]
          ring
        · have t1 : turn r.s.length m i = i + m - r.s.length := if_neg (by omega)
          have t2 : turn r.s.length m (i + 1) = i + m - r.s.length + 1 := (if_neg (by omega)).trans (by omega)
          rw [t1, t2, if_pos (by omega), before _ (by omega), before _ (by omega)]
          ring
    · rw [if_neg c1]
      by_cases c2 : i + m < r.s.length
      · have t1 : turn r.s.length m i = i + m := if_pos (by omega)
        have hm0 : m = 0 := by omega
        have ha0 : a = 0 := by rw [← ham, hm0]; exact h00
        rw [t1, if_neg (by omega), after _ (by omega) (by omega), ha0, sub_zero]
      · have t1 : turn r.s.length m i = m - 1 := (if_neg c2).trans (by omega)
        rw [t1, if_pos (by omega), before _ (by omega), show m - 1 + 1 = m by omega, ham]
        ring

theorem moved_consistent {c : CV K} (m : Nat) (h : Consistent c) : Consistent (movedControl m c) := by
  unfold movedControl
  split
  · cases h with
    | dontOptimize k => rename_i hk _ _ _; rw [k] at hk; cases hk
    | constant k => rename_i hk _ _ _; rw [k] at hk; cases hk
    | hypermesh k => rename_i hk _ _; rw [k] at hk; cases hk
    | fullMesh k h1 h2 h3 =>
      refine .fullMesh k h1 ?_ h3
      rcases h2 with h2 | h2
      · left; simp [h2]
      · right; simpa using h2
  · exact h

/-- The request for the moved lap is accepted, if the last two nodes are far enough apart. -/
theorem moved_acceptable {lowest max : K} {v : Vehicle K} {r : Request K} {p : Problem K} {a : K} {m : Nat}
    (hp : prepare lowest max v r = .ok p) (hcl : r.isClosed = true) (hs : r.s.Pairwise (· < ·)) (h0 : r.s[0]? = some 0)
    (ha : r.s[m]? = some a) (hgap : ∀ b, 0 < m → r.s[m - 1]? = some b → b + 1 / 10 ^ 10 ≤ a) :
    Acceptable (movedVehicle v a) (movedRequest v.trackLength a m r) := by
  obtain ⟨hacc, -⟩ := prepare_ok hp
  have hm : m < r.s.length := (List.getElem?_eq_some_iff.1 ha).1
  refine ⟨by simpa [movedRequest] using hacc.two, ?_, ?_, by simpa [movedRequest] using hacc.inputs, ?_, ?_, hacc.names,
    hacc.ready⟩
  · intro _ x y hx hy
    rw [List.head?_eq_getElem?] at hx
    rw [List.getLast?_eq_getElem?] at hy
    simp only [movedRequest, List.length_map, List.length_rotate] at hx hy
    rw [moved_s rfl hm.le (by omega), show turn r.s.length m 0 = m by unfold turn; split <;> omega,
      List.getD_eq_getElem?_getD, ha] at hx
    have hx0 : x = 0 := by rw [← Option.some.inj hx]; simp [fromLine]
    refine ⟨by rw [hx0, abs_zero]; positivity, ?_⟩
    rw [moved_s rfl hm.le (by omega)] at hy
    have hy := Option.some.inj hy
    show y ≤ v.trackLength - 1 / 10 ^ 10
    by_cases hm0 : m = 0
    · subst hm0
      have ha0 : a = 0 := Option.some.inj (ha.symm.trans h0)
      obtain ⟨b, hb⟩ : ∃ b, r.s[r.s.length - 1]? = some b := ⟨_, List.getElem?_eq_getElem (by omega)⟩
      have := (hacc.closedEnds hcl 0 b (by rw [List.head?_eq_getElem?]; exact h0)
        (by rw [List.getLast?_eq_getElem?]; exact hb)).2
      have hb0 := ((mesh_facts hp hcl hs h0).2 b (List.mem_of_getElem? hb)).1
      rw [show turn r.s.length 0 (r.s.length - 1) = r.s.length - 1 by unfold turn; split <;> omega,
        List.getD_eq_getElem?_getD, hb, Option.getD_some, ha0, fromLine, if_pos hb0, sub_zero] at hy
      rw [← hy]
      exact this
    · obtain ⟨b, hb⟩ : ∃ b, r.s[m - 1]? = some b := ⟨_, List.getElem?_eq_getElem (by omega)⟩
      have hg := hgap b (by omega) hb
      have : (0 : K) < 1 / 10 ^ 10 := by positivity
      rw [show turn r.s.length m (r.s.length - 1) = m - 1 by unfold turn; split <;> omega,
        List.getD_eq_getElem?_getD, hb, Option.getD_some, fromLine, if_neg (by linarith)] at hy
      rw [← hy]
      linarith
  · intro h
    rw [show (movedRequest v.trackLength a m r).isClosed = r.isClosed from rfl, hcl] at h
    cases h
  · intro c hc
    obtain ⟨d, hd, rfl⟩ := List.mem_map.1 hc
    exact moved_consistent m (hacc.consistent d hd)
  · intro c hc hk
    obtain ⟨d, hd, rfl⟩ := List.mem_map.1 hc
    have hdk : d.kind = .fullMesh := by
      rw [movedControl_full hk] at hk
      exact hk
    obtain ⟨e1, e2⟩ := hacc.full d hd hdk
    rw [movedControl_full hk]
    simp only [movedRequest, List.length_map, List.length_rotate]
    exact ⟨e1, e2⟩

/-- C250, the part that holds: a closed lap may be started at any node `m` of the mesh (at arclength `a`). The request with
everything counted from there is accepted; the same lap takes as long; it obeys the equations of motion and all limits as
before, provided that integral quantities are not constrained or `σ = 1/2`; and its smoothing penalty is the same in the
direct form, or without dissipation. Hypermesh controls are not periodic and are excluded. -/
theorem C250_lap_partial (lowest max : K) (v : Vehicle K) (hnd : v.integralNames.Nodup) (r : Request K) (p : Problem K)
    (hp : prepare lowest max v r = .ok p) (hcl : r.isClosed = true) (hs : r.s.Pairwise (· < ·)) (h0 : r.s[0]? = some 0)
    (m : Nat) (a : K) (ha : r.s[m]? = some a) (hgap : ∀ b, 0 < m → r.s[m - 1]? = some b → b + 1 / 10 ^ 10 ≤ a)
    (hplain : ∀ c ∈ r.controls, c.kind ≠ .hypermesh) :
    ∃ p', prepare lowest max (movedVehicle v a) (movedRequest v.trackLength a m r) = .ok p' ∧
      ∀ (ins : List (Row K)) (ctrls : List (CV K)) (node : Nat → Node K), FitsProblem p ⟨ins, ctrls⟩ →
        EvaluatedNodes v p ⟨ins, ctrls⟩ node →
        ∃ node', FitsProblem p' ⟨ins.rotate m, ctrls.map (movedControl m)⟩ ∧
          EvaluatedNodes (movedVehicle v a) p' ⟨ins.rotate m, ctrls.map (movedControl m)⟩ node' ∧
          lapDuration (movedVehicle v a) p' node' = lapDuration v p node ∧
          (r.opts.sigma = 1 / 2 ∨ r.opts.integral = [] → ∀ tolB tolC, Obeys v p tolB tolC ins ctrls node →
            Obeys (movedVehicle v a) p' tolB tolC (ins.rotate m) (ctrls.map (movedControl m)) node') ∧
          (r.isDirect = true ∨ (∀ c ∈ r.controls, c.kind = .fullMesh → c.dissipation = 0) →
            smoothing (movedVehicle v a) p' node' (ctrls.map (movedControl m)) = smoothing v p node ctrls) := by
  obtain ⟨p', hp', -⟩ := prepare_accepted lowest max _ _ (moved_acceptable hp hcl hs h0 ha hgap)
  have M := moved_problem hp hp' hcl hs h0 ha hplain hnd
  have hg := (prepare_ok hp).2
  refine ⟨p', hp', fun ins ctrls node hf hn => ⟨_, M.fits hf, M.nodes hf hn, M.duration hn, fun hq tolB tolC ho => ?_, fun hd => ?_⟩⟩
  · refine M.obeys hf hn ?_ ho
    rcases hq with hq | hq
    · left; rw [hg.opts]; exact hq
    · right
      intro q hqm
      obtain ⟨k, hk⟩ := List.getElem?_of_mem hqm
      have hlt : k < v.integralNames.length := hg.nQuantities ▸ (List.getElem?_eq_some_iff.1 hk).1
      rw [hg.quantities hnd k _ (List.getElem?_eq_getElem hlt), hq] at hk
      rw [← Option.some.inj hk]
      rfl
  · refine M.smoothing hf hn ?_
    rcases hd with hd | hd
    · left; rw [hg.isDirect]; exact hd
    · right
      intro c hc hk
      rw [hg.controls] at hc
      obtain ⟨d, hd', rfl⟩ := List.mem_map.1 hc
      have hk : d.kind = .fullMesh := hk
      simp only [meaningful, hk, if_true]
      exact hd d hd' hk


theorem moved_wf {v : Vehicle K} {n : Nat} (h : v.WellFormed n) (a : K) : (movedVehicle v a).WellFormed n :=
  ⟨h.lateral, h.equations, h.defaults⟩

theorem moved_clockFree {v : Vehicle K} (h : ClockFree v) (a : K) : ClockFree (movedVehicle v a) :=
  ⟨fun row row' u _ hr => h.same row row' u _ hr⟩

/-- The best lap of the moved problem is no slower. -/
theorem Moved.no_slower {lowest max : K} {v v' : Vehicle K} {r r' : Request K} {p p' : Problem K} {m : Nat} (M : Moved v v' p p' m)
    (hv : v.WellFormed r.controls.length) (hv' : v'.WellFormed r'.controls.length) (hcf : ClockFree v) (hcf' : ClockFree v')
    {ini ini' : Initial K} {nlp nlp' : Nlp K} (hset : setUp lowest max v r = .ok (p, ini, nlp))
    (hset' : setUp lowest max v' r' = .ok (p', ini', nlp'))
    (hq : p.opts.sigma = 1 / 2 ∨ ∀ q ∈ p.quantities, q.restrict = false)
    (hd : p.isDirect = true ∨ ∀ c ∈ p.controls, c.kind = .fullMesh → c.dissipation = 0)
    {opt : Optimiser K} (hopt : RightSizes opt) (hrel : Reliable 0 0 opt) (hmin : Minimises opt) {tf : Bool} {lap lap' : Lap K}
    (hlap : solveLap lowest max v tf opt r = .ok lap) (hsuc : lap.success = true)
    (hlap' : solveLap lowest max v' tf opt r' = .ok lap') (hsuc' : lap'.success = true) {node node' : Nat → Node K}
    (hnode : EvaluatedNodes v p ⟨lap.inputs, lap.controls⟩ node)
    (hnode' : EvaluatedNodes v' p' ⟨lap'.inputs, lap'.controls⟩ node') :
    lapDuration v' p' node' + Transcription.smoothing v' p' node' lap'.controls
      ≤ lapDuration v p node + Transcription.smoothing v p node lap.controls := by
  have cov : ∀ q : Problem K, (∀ c ∈ q.controls, c.kind ≠ .hypermesh) → HypermeshCovers q :=
    fun q h c hc hk => absurd hk (h c hc)
  have hcov := cov p M.plain
  have hcov' := cov p' M.symm.plain
  have hob := C190_lap_obeys lowest max _ r hv hcf p ini nlp hset hcov opt hopt 0 0 hrel tf lap hlap hsuc node hnode
  obtain ⟨nd, t0, -, -, -, hfit, -⟩ := C190_own_times lowest max _ r hv hcf p ini nlp hset hcov opt hopt tf lap hlap
  obtain ⟨es', b', h'⟩ := setUp_ready hv' hset' hcov'
  have hcl : r'.isClosed = true := (prepare_ok h'.run.prepared).2.isClosed.symm.trans M.closed'
  have := C191_no_better_lap lowest max _ _ hv' hcf' p' ini' nlp' hset' hcov' opt hopt hmin tf lap' hlap' hsuc' node' hnode'
    _ _ _ (M.fits hfit) (M.nodes hfit hnode) (M.obeys hfit hnode hq hob) (fun h => by rw [hcl] at h; cases h)
  refine this.trans_eq ?_
  rw [M.duration hnode, M.smoothing hfit hnode hd]

theorem setUp_prepared {lowest max : K} {v : Vehicle K} {r : Request K} {p : Problem K} {ini : Initial K} {nlp : Nlp K}
    (hset : setUp lowest max v r = .ok (p, ini, nlp)) : prepare lowest max v r = .ok p := by
  unfold setUp at hset
  obtain ⟨q, hq, h⟩ := Res.bind_eq_ok.1 hset
  obtain ⟨_, -, h⟩ := Res.bind_eq_ok.1 h
  obtain ⟨_, -, h⟩ := Res.bind_eq_ok.1 h
  obtain ⟨_, -, h⟩ := Res.bind_eq_ok.1 h
  obtain ⟨_, -, h⟩ := Res.bind_eq_ok.1 h
  have := (Prod.mk.inj (Res.ok.inj h)).1
  rw [hq, this]

/-- C250, the part about the best lap that holds: with an optimiser that finds the best lap, the best closed laps started at
two nodes of the mesh take the same time (plus smoothing penalty), under the conditions of C250_lap_partial. -/
theorem C250_best_partial (lowest max : K) (v : Vehicle K) (hcf : ClockFree v) (hnd : v.integralNames.Nodup) (r : Request K)
    (hv : v.WellFormed r.controls.length) (hcl : r.isClosed = true) (hs : r.s.Pairwise (· < ·)) (h0 : r.s[0]? = some 0)
    (m : Nat) (a : K) (ha : r.s[m]? = some a) (hplain : ∀ c ∈ r.controls, c.kind ≠ .hypermesh)
    (hq : r.opts.sigma = 1 / 2 ∨ r.opts.integral = [])
    (hd : r.isDirect = true ∨ ∀ c ∈ r.controls, c.kind = .fullMesh → c.dissipation = 0)
    (p : Problem K) (ini : Initial K) (nlp : Nlp K) (hset : setUp lowest max v r = .ok (p, ini, nlp))
    (p' : Problem K) (ini' : Initial K) (nlp' : Nlp K)
    (hset' : setUp lowest max (movedVehicle v a) (movedRequest v.trackLength a m r) = .ok (p', ini', nlp'))
    (opt : Optimiser K) (hopt : RightSizes opt) (hrel : Reliable 0 0 opt) (hmin : Minimises opt) (tf : Bool) (lap lap' : Lap K)
    (hlap : solveLap lowest max v tf opt r = .ok lap) (hsuc : lap.success = true)
    (hlap' : solveLap lowest max (movedVehicle v a) tf opt (movedRequest v.trackLength a m r) = .ok lap')
    (hsuc' : lap'.success = true) (node node' : Nat → Node K)
    (hnode : EvaluatedNodes v p ⟨lap.inputs, lap.controls⟩ node)
    (hnode' : EvaluatedNodes (movedVehicle v a) p' ⟨lap'.inputs, lap'.controls⟩ node') :
    lapDuration (movedVehicle v a) p' node' + smoothing (movedVehicle v a) p' node' lap'.controls
      = lapDuration v p node + smoothing v p node lap.controls := by
  have hv' : (movedVehicle v a).WellFormed (movedRequest v.trackLength a m r).controls.length := by
    simpa [movedRequest] using moved_wf hv a
  have hcf' := moved_clockFree hcf a
  have hp := setUp_prepared hset
  have hp' := setUp_prepared hset'
  have M := moved_problem hp hp' hcl hs h0 ha hplain hnd
  have hg := (prepare_ok hp).2
  have hq1 : p.opts.sigma = 1 / 2 ∨ ∀ q ∈ p.quantities, q.restrict = false := by
    rcases hq with hq | hq
    · left; rw [hg.opts]; exact hq
    · right
      intro q hqm
      obtain ⟨k, hk⟩ := List.getElem?_of_mem hqm
      have hlt : k < v.integralNames.length := hg.nQuantities ▸ (List.getElem?_eq_some_iff.1 hk).1
      rw [hg.quantities hnd k _ (List.getElem?_eq_getElem hlt), hq] at hk
      rw [← Option.some.inj hk]
      rfl
  have hd1 : p.isDirect = true ∨ ∀ c ∈ p.controls, c.kind = .fullMesh → c.dissipation = 0 := by
    rcases hd with hd | hd
    · left; rw [hg.isDirect]; exact hd
    · right
      intro c hc hk
      rw [hg.controls] at hc
      obtain ⟨d, hd', rfl⟩ := List.mem_map.1 hc
      have hk : d.kind = .fullMesh := hk
      simp only [meaningful, hk, if_true]
      exact hd d hd' hk
  have hq2 : p'.opts.sigma = 1 / 2 ∨ ∀ q ∈ p'.quantities, q.restrict = false := by
    rw [M.opts, M.quantities]; exact hq1
  have hd2 : p'.isDirect = true ∨ ∀ c ∈ p'.controls, c.kind = .fullMesh → c.dissipation = 0 := by
    rcases hd1 with hd | hd
    · left; rw [M.isDirect]; exact hd
    · right
      intro c hc hk
      obtain ⟨k, hk'⟩ := List.getElem?_of_mem hc
      have hlt : k < p.controls.length := M.nControls ▸ (List.getElem?_eq_some_iff.1 hk').1
      have := M.frames k _ c (List.getElem?_eq_getElem hlt) hk'
      rw [this.diss]
      exact hd _ (List.getElem_mem hlt) (this.kind.symm.trans hk)
  exact le_antisymm
    (M.no_slower hv hv' hcf hcf' hset hset' hq1 hd1 hopt hrel hmin hlap hsuc hlap' hsuc' hnode hnode')
    (M.symm.no_slower hv' hv hcf' hcf hset' hset hq2 hd2 hopt hrel hmin hlap' hsuc' hlap hsuc hnode' hnode)

end

/-- C250, the part about the lap time that holds: without dissipation the two lap times are the same. -/
theorem C250_laptime_partial (lowest max : ℝ) (v : Vehicle ℝ) (hcf : ClockFree v) (hnd : v.integralNames.Nodup) (r : Request ℝ)
    (hv : v.WellFormed r.controls.length) (hcl : r.isClosed = true) (hs : r.s.Pairwise (· < ·)) (h0 : r.s[0]? = some 0)
    (m : Nat) (a : ℝ) (ha : r.s[m]? = some a) (hplain : ∀ c ∈ r.controls, c.kind ≠ .hypermesh)
    (hq : r.opts.sigma = 1 / 2 ∨ r.opts.integral = [])
    (hd : ∀ c ∈ r.controls, c.kind = .fullMesh → c.dissipation = 0)
    (p : Problem ℝ) (ini : Initial ℝ) (nlp : Nlp ℝ) (hset : setUp lowest max v r = .ok (p, ini, nlp))
    (p' : Problem ℝ) (ini' : Initial ℝ) (nlp' : Nlp ℝ)
    (hset' : setUp lowest max (movedVehicle v a) (movedRequest v.trackLength a m r) = .ok (p', ini', nlp'))
    (opt : Optimiser ℝ) (hopt : RightSizes opt) (hrel : Reliable 0 0 opt) (hmin : Minimises opt) (tf : Bool) (lap lap' : Lap ℝ)
    (hlap : solveLap lowest max v tf opt r = .ok lap) (hsuc : lap.success = true)
    (hlap' : solveLap lowest max (movedVehicle v a) tf opt (movedRequest v.trackLength a m r) = .ok lap')
    (hsuc' : lap'.success = true) : lap'.laptime = lap.laptime := by
  have hv' : (movedVehicle v a).WellFormed (movedRequest v.trackLength a m r).controls.length := by
    simpa [movedRequest] using moved_wf hv a
  have hcf' := moved_clockFree hcf a
  have hp := setUp_prepared hset
  have hp' := setUp_prepared hset'
  have M := moved_problem hp hp' hcl hs h0 ha hplain hnd
  have hcov : HypermeshCovers p := fun c hc hk => absurd hk (M.plain c hc)
  have hcov' : HypermeshCovers p' := fun c hc hk => absurd hk (M.symm.plain c hc)
  have hd' : ∀ c ∈ (movedRequest v.trackLength a m r).controls, c.kind = .fullMesh → c.dissipation = 0 := by
    intro c hc hk
    obtain ⟨d, hd', rfl⟩ := List.mem_map.1 hc
    have hk' : d.kind = .fullMesh := by unfold movedControl at hk; split at hk <;> assumption
    rw [movedControl, if_pos hk']
    exact hd d hd' hk'
  obtain ⟨nd, t0, -, -, -, hfit, hn, -, ht, -, -, hc0, -⟩ := C190_own_times lowest max _ r hv hcf p ini nlp hset hcov opt hopt
    tf lap hlap
  obtain ⟨nd', t0', -, -, -, hfit', hn', -, ht', -, -, hc0', -⟩ := C190_own_times lowest max _ _ hv' hcf' p' ini' nlp' hset'
    hcov' opt hopt tf lap' hlap'
  have := C250_best_partial lowest max v hcf hnd r hv hcl hs h0 m a ha hplain hq (Or.inr hd) p ini nlp hset p' ini' nlp' hset'
    opt hopt hrel hmin tf lap lap' hlap hsuc hlap' hsuc' nd nd' hn hn'
  rw [LapVehicles.smoothing_none hp hd hfit, LapVehicles.smoothing_none hp' hd' hfit', add_zero, add_zero] at this
  rw [ht, ht', this, hc0 hcl, hc0' hcl]

/-! ### Concrete laps -/

section ex

/-- A vehicle with one control that moves freely across a closed track of 30 m, at a pace (time per metre) that depends on
where it is. -/
def cart (pace : ℝ → ℝ → ℝ) : Vehicle ℝ :=
  { nInputs := 2, iTime := 0, sTime := 0, nExtra := 0, timeIds := [], algIds := [1], controlsDef := [0],
    dcontrolsLb := [-10], dcontrolsUb := [10], extraLb := fun _ _ => 0, extraUb := fun _ _ => 0,
    trackLength := 30, leftLimit := fun _ => 5, rightLimit := fun _ => 5, integralNames := [['q']],
    eval := fun row _ s => ⟨row, fun k => if k = 0 then pace s (row 1) else 0, fun _ => 0, fun _ => 1⟩, ready := true }

theorem cart_wf (pace : ℝ → ℝ → ℝ) : (cart pace).WellFormed 1 := ⟨show 0 + 1 < 2 by decide, rfl, rfl⟩

theorem cart_clockFree (pace : ℝ → ℝ → ℝ) : ClockFree (cart pace) where
  same := by
    intro row row' u s h
    have : row 1 = row' 1 := h 1 (show 1 < 2 by decide) (show 1 ≠ 0 by decide)
    refine ⟨?_, rfl, rfl, fun q hq => by cases hq⟩
    simp only [cart, this]

theorem cart_moved (pace : ℝ → ℝ → ℝ) (a : ℝ) : movedVehicle (cart pace) a = cart fun s => pace (fromOrigin 30 a s) := rfl

/-- A closed lap over the nodes at 0, 10 and 20 m, in the middle of the track. -/
def cartRequest (direct : Bool) (c : CV ℝ) (q : List (Name × ℝ × ℝ)) (σ : ℝ) : Request ℝ :=
  { s := [0, 10, 20], isClosed := true, isDirect := direct, inputs := [fun _ => 0, fun _ => 0, fun _ => 0], controls := [c],
    warm := none,
    opts := { inputsLb := fun _ => -1, inputsUb := fun _ => 1, controlsLb := fun _ => -100, controlsUb := fun _ => 100,
              integral := q, sigma := σ } }

theorem cartRequest_moved (direct : Bool) (c : CV ℝ) (q : List (Name × ℝ × ℝ)) (σ : ℝ) :
    movedRequest 30 10 1 (cartRequest direct c q σ) = cartRequest direct (movedControl 1 c) q σ := by
  have h1 : fromLine (30 : ℝ) 10 10 = 0 := by norm_num [fromLine]
  have h2 : fromLine (30 : ℝ) 10 20 = 10 := by norm_num [fromLine]
  have h3 : fromLine (30 : ℝ) 10 0 = 20 := by norm_num [fromLine]
  simp [movedRequest, cartRequest, List.rotate, h1, h2, h3]

/-- A control given at the three nodes. -/
def threeValues (direct : Bool) (a b c da db dc diss : ℝ) : CV ℝ :=
  if direct then createFullMesh [a, b, c] diss else createFullMeshD [a, b, c] [da, db, dc] diss

theorem threeValues_moved (direct : Bool) (a b c da db dc diss : ℝ) :
    movedControl 1 (threeValues direct a b c da db dc diss) = threeValues direct b c a db dc da diss := by
  cases direct <;> simp [movedControl, threeValues, createFullMesh, createFullMeshD, List.rotate]

theorem cart_accepted (pace : ℝ → ℝ → ℝ) (direct : Bool) (a b c da db dc diss σ : ℝ) (hd : 0 ≤ diss)
    (q : List (Name × ℝ × ℝ)) (hq : ∀ x ∈ q, x.1 = ['q']) :
    Acceptable (cart pace) (cartRequest direct (threeValues direct a b c da db dc diss) q σ) := by
  refine ⟨by simp [cartRequest], ?_, (fun h => by cases h), rfl, ?_, ?_, ?_, rfl⟩
  · intro _ x y hx hy
    simp [cartRequest] at hx hy
    subst hx hy
    norm_num [cart]
  · intro d hd'
    simp only [cartRequest, List.mem_singleton] at hd'
    subst hd'
    cases direct
    · exact .fullMesh rfl rfl (Or.inr rfl) hd
    · exact .fullMesh rfl rfl (Or.inl rfl) hd
  · intro d hd' _
    simp only [cartRequest, List.mem_singleton] at hd'
    subst hd'
    cases direct <;> exact ⟨rfl, rfl⟩
  · intro x hx
    rw [hq x hx]
    simp [cart]

/-- The nodes of the lap that was requested. -/
noncomputable def cartNodes (pace : ℝ → ℝ → ℝ) (a b c : ℝ) (i : Nat) : Node ℝ :=
  ⟨10 * i, (cart pace).eval (fun _ => 0) [[a, b, c].getD i 0] (10 * i)⟩

theorem cart_fits {pace : ℝ → ℝ → ℝ} {direct : Bool} {a b c da db dc diss σ : ℝ} {q : List (Name × ℝ × ℝ)} {p : Problem ℝ}
    (hd : 0 ≤ diss) (hp : prepare (-10 ^ 9) (10 ^ 9) (cart pace) (cartRequest direct (threeValues direct a b c da db dc diss) q σ) = .ok p) :
    p.nPoints = 3 ∧ p.nElements = 3 ∧ p.s = [0, 10, 20] ∧ p.controls = [threeValues direct a b c da db dc diss] ∧
    p.isDirect = direct ∧ p.isClosed = true ∧ p.opts = (cartRequest direct (threeValues direct a b c da db dc diss) q σ).opts ∧
    FitsProblem p ⟨[fun _ => 0, fun _ => 0, fun _ => 0], [threeValues direct a b c da db dc diss]⟩ ∧
    EvaluatedNodes (cart pace) p ⟨[fun _ => 0, fun _ => 0, fun _ => 0], [threeValues direct a b c da db dc diss]⟩
      (cartNodes pace a b c) := by
  have hg := (prepare_ok hp).2
  have hn : p.nPoints = 3 := hg.nPoints
  have hs : p.s = [0, 10, 20] := hg.s
  have hc : p.controls = [threeValues direct a b c da db dc diss] := by
    rw [hg.controls]
    cases direct <;> rfl
  refine ⟨hn, hg.nElements, hs, hc, hg.isDirect, hg.isClosed, hg.opts, ⟨by rw [hn]; rfl, by rw [hc], ?_⟩, ?_⟩
  · intro k cv cv' h1 h2
    rw [hc] at h1
    obtain rfl := Option.some.inj (h1.symm.trans h2)
    exact ⟨rfl, rfl, rfl, rfl, rfl⟩
  · intro i hi
    rw [hn] at hi
    refine ⟨fun _ => 0, 10 * i, [[a, b, c].getD i 0], ?_, ?_, rfl, ?_, rfl⟩
    · interval_cases i <;> rfl
    · rw [hs]
      interval_cases i <;> norm_num
    · intro k cv d x h1 h2 h3
      obtain rfl : k = 0 := by
        have := (List.getElem?_eq_some_iff.1 h3).1
        simp at this
        exact this
      obtain rfl := Option.some.inj h1
      obtain rfl := Option.some.inj h3
      interval_cases i <;> cases direct <;> rfl

/-- The requested lap obeys all equations and limits if the control is the integral of its rates and the integral of the
pace is within the requested bounds. -/
theorem cart_obeys {pace : ℝ → ℝ → ℝ} {direct : Bool} {a b c da db dc diss σ : ℝ} {q : List (Name × ℝ × ℝ)} {p : Problem ℝ}
    {node : Nat → Node ℝ} (hnode : ∀ i, i < 3 → node i = cartNodes pace a b c i)
    (hd : 0 ≤ diss) (hp : prepare (-10 ^ 9) (10 ^ 9) (cart pace) (cartRequest direct (threeValues direct a b c da db dc diss) q σ) = .ok p)
    (hv : ∀ x ∈ [a, b, c], -100 ≤ x ∧ x ≤ 100) (hr : ∀ x ∈ [da, db, dc], -10 ≤ x ∧ x ≤ 10)
    (hi : direct = false → b - a = 10 * ((1 - σ) * da * pace 0 0 + σ * db * pace 10 0) ∧
      c - b = 10 * ((1 - σ) * db * pace 10 0 + σ * dc * pace 20 0) ∧
      a - c = 10 * ((1 - σ) * dc * pace 20 0 + σ * da * pace 0 0))
    (hq : ∀ x, p.quantities[0]? = some x → x.restrict = true →
      x.lowerBound ≤ codedIntegral (cart pace) p node 0 ∧ codedIntegral (cart pace) p node 0 ≤ x.upperBound) :
    Obeys (cart pace) p 0 0 [fun _ => 0, fun _ => 0, fun _ => 0] [threeValues direct a b c da db dc diss] node := by
  obtain ⟨hn, he, hs, hc, hdi, hcl, ho, hf, hev⟩ := cart_fits hd hp
  have hrow : ∀ (i : Nat) (row : Row ℝ), [fun _ => 0, fun _ => 0, fun _ => (0 : ℝ)][i]? = some row → ∀ k, row k = 0 := by
    intro i row h k
    have := List.mem_of_getElem? h
    simp at this
    rw [this]
  have hone : ∀ (k : Nat) (cv : CV ℝ), [threeValues direct a b c da db dc diss][k]? = some cv →
      cv = threeValues direct a b c da db dc diss := fun k cv h => by
    simpa using List.mem_of_getElem? h
  have hvals : (threeValues direct a b c da db dc diss).controls = [a, b, c] := by cases direct <;> rfl
  have hkind : (threeValues direct a b c da db dc diss).kind = .fullMesh := by cases direct <;> rfl
  have hq1 : p.quantities.length = 1 := (prepare_ok hp).2.nQuantities
  refine ⟨?_, ?_, ?_, ?_, ?_, ?_, ?_, ?_, ?_, ?_⟩
  · intro i row si _ h _
    rw [hrow i row h]
    norm_num [cart]
  · intro i j row _ _ _ _ h
    rw [hrow i row h, ho]
    norm_num [cartRequest]
  · intro i k cv x _ h _ hx
    rw [hone k cv h, hvals] at hx
    have := hv x (List.mem_of_getElem? hx)
    rw [ho]
    simpa [cartRequest] using this
  · intro k j cv x h hk
    rw [hone k cv h, hkind] at hk
    simp at hk
  · intro hdir i k cv x l u _ h _ hx hl hu
    rw [hdi] at hdir
    subst hdir
    obtain rfl := hone k cv h
    have hx := hr x (List.mem_of_getElem? hx)
    obtain rfl : k = 0 := by
      have := (List.getElem?_eq_some_iff.1 h).1
      simpa using this
    obtain rfl := Option.some.inj hl
    obtain rfl := Option.some.inj hu
    simpa using hx
  · intro e k _ hk
    cases hk
  · intro e k _ hk
    obtain rfl : k = 1 := by simpa [cart] using hk
    rw [hnode _ (by unfold rightNode; split <;> omega)]
    simp [cartNodes, cart]
  · intro e k sr _ hk
    cases hk
  · intro hdir e k cv hee h _
    rw [hdi] at hdir
    subst hdir
    obtain ⟨i1, i2, i3⟩ := hi rfl
    obtain rfl := hone k cv h
    rw [he] at hee
    have hσ : p.opts.sigma = σ := by rw [ho]; rfl
    rw [hσ]
    refine le_of_eq (abs_eq_zero.2 ?_)
    interval_cases e <;>
      simp [valueAt, rateAt, rightNode, elementLength, hn, hnode, cartNodes, dtds, cart, threeValues, createFullMeshD]
    · linear_combination i1
    · norm_num
      linear_combination i2
    · norm_num
      linear_combination i3
  · intro k x hk hrx
    obtain rfl : k = 0 := by
      have := (List.getElem?_eq_some_iff.1 hk).1
      omega
    have := hq x hk hrx
    simpa using this

/-- C250 in full fails: with a smoothing penalty on a rate, a lap costs more when it starts at another node (75 instead of 60),
although it obeys the same equations and limits and takes as long. The penalty of every inner element counts the rate at the
first node instead of that at its own start (disagreement C08). -/
theorem C250_false_penalty : ∃ (v : Vehicle ℝ) (r : Request ℝ) (p p' : Problem ℝ) (ins ins' : List (Row ℝ))
    (ctrls : List (CV ℝ)) (node node' : Nat → Node ℝ),
    r.isClosed = true ∧ r.s = [0, 10, 20] ∧
    prepare (-10 ^ 9) (10 ^ 9) v r = .ok p ∧
    prepare (-10 ^ 9) (10 ^ 9) (movedVehicle v 10) (movedRequest v.trackLength 10 1 r) = .ok p' ∧ ins' = ins.rotate 1 ∧
    EvaluatedNodes v p ⟨ins, ctrls⟩ node ∧ EvaluatedNodes (movedVehicle v 10) p' ⟨ins', ctrls.map (movedControl 1)⟩ node' ∧
    Obeys v p 0 0 ins ctrls node ∧ Obeys (movedVehicle v 10) p' 0 0 ins' (ctrls.map (movedControl 1)) node' ∧
    lapDuration (movedVehicle v 10) p' node' = lapDuration v p node ∧
    smoothing v p node ctrls = 75 ∧ smoothing (movedVehicle v 10) p' node' (ctrls.map (movedControl 1)) = 60 := by
  obtain ⟨p, hp, -⟩ := prepare_accepted (-10 ^ 9) (10 ^ 9) _ _ (cart_accepted (fun _ _ => 1) false 0 5 (-5) 2 (-1) (-1) 1 (1 / 2)
    zero_le_one [] (by simp))
  obtain ⟨p', hp', -⟩ := prepare_accepted (-10 ^ 9) (10 ^ 9) _ _ (cart_accepted (fun _ _ => 1) false 5 (-5) 0 (-1) (-1) 2 1 (1 / 2)
    zero_le_one [] (by simp))
  obtain ⟨hn, he, hs, hc, hdi, hcl, ho, hf, hev⟩ := cart_fits zero_le_one hp
  obtain ⟨hn', he', hs', hc', hdi', hcl', ho', hf', hev'⟩ := cart_fits zero_le_one hp'
  have hnoq : ∀ {r : Request ℝ} {p : Problem ℝ}, prepare (-10 ^ 9) (10 ^ 9) (cart fun _ _ => 1) r = .ok p →
      r.opts.integral = [] → ∀ x, p.quantities[0]? = some x → x.restrict ≠ true := by
    intro r p hp hr x hx
    rw [(prepare_ok hp).2.quantities (by simp [cart]) 0 ['q'] rfl, hr] at hx
    rw [← Option.some.inj hx]
    simp [lastRequest]
  have hmv : movedVehicle (cart fun _ _ => 1) 10 = cart fun _ _ => 1 := rfl
  have hfull : ∀ a b c da db dc d : ℝ, (threeValues false a b c da db dc d).kind = .fullMesh := fun _ _ _ _ _ _ _ => rfl
  refine ⟨cart fun _ _ => 1, cartRequest false (threeValues false 0 5 (-5) 2 (-1) (-1) 1) [] (1 / 2), p, p',
    [fun _ => 0, fun _ => 0, fun _ => 0], [fun _ => 0, fun _ => 0, fun _ => 0], [threeValues false 0 5 (-5) 2 (-1) (-1) 1],
    cartNodes (fun _ _ => 1) 0 5 (-5), cartNodes (fun _ _ => 1) 5 (-5) 0, rfl, rfl, hp, ?_, rfl, hev, ?_,
    cart_obeys (fun _ _ => rfl) zero_le_one hp ?_ ?_ ?_ ?_, ?_, ?_, ?_, ?_⟩
  · rw [show (cart fun _ _ => 1).trackLength = 30 from rfl, cartRequest_moved, threeValues_moved, hmv]
    exact hp'
  · rw [hmv, List.map_singleton, threeValues_moved]
    exact hev'
  · simp; norm_num
  · simp; norm_num
  · intro _; norm_num
  · intro x hx hr
    exact absurd hr (hnoq hp rfl x hx)
  · rw [hmv, List.map_singleton, threeValues_moved]
    refine cart_obeys (fun _ _ => rfl) zero_le_one hp' ?_ ?_ ?_ ?_
    · simp; norm_num
    · simp; norm_num
    · intro _; norm_num
    · intro x hx hr
      exact absurd hr (hnoq hp' rfl x hx)
  · rw [hmv]
    simp only [lapDuration, quadrature, quadratureTo, he, he', ho, ho', Finset.sum_range_succ, Finset.sum_range_zero]
    simp [elementLength, hn, hn', cartNodes, dtds, cart, cartRequest]
  · simp only [smoothing, hdi, overFullMesh, he, Finset.sum_range_succ, Finset.sum_range_zero]
    simp [codedRatePenalty, rightNode, elementLength, hn, cartNodes, cart, threeValues, createFullMeshD, rateAt]
    norm_num
  · rw [hmv, List.map_singleton, threeValues_moved]
    simp only [smoothing, hdi', overFullMesh, he', Finset.sum_range_succ, Finset.sum_range_zero]
    simp [codedRatePenalty, rightNode, elementLength, hn', cartNodes, cart, threeValues, createFullMeshD, rateAt]
    norm_num

/-- C250 in full fails: with weights other than 1/2, a lap within the bounds of an integral constraint (530 in [500,600]) is
outside of them (230) when it starts at another node. The closing element is weighted the wrong way round
(disagreement C11). -/
theorem C250_false_integral : ∃ (v : Vehicle ℝ) (r : Request ℝ) (p p' : Problem ℝ) (ins ins' : List (Row ℝ))
    (ctrls : List (CV ℝ)) (node node' : Nat → Node ℝ),
    r.isClosed = true ∧ r.s = [0, 10, 20] ∧
    prepare (-10 ^ 9) (10 ^ 9) v r = .ok p ∧
    prepare (-10 ^ 9) (10 ^ 9) (movedVehicle v 10) (movedRequest v.trackLength 10 1 r) = .ok p' ∧ ins' = ins.rotate 1 ∧
    EvaluatedNodes v p ⟨ins, ctrls⟩ node ∧ EvaluatedNodes (movedVehicle v 10) p' ⟨ins', ctrls.map (movedControl 1)⟩ node' ∧
    Obeys v p 0 0 ins ctrls node ∧ ¬ Obeys (movedVehicle v 10) p' 0 0 ins' (ctrls.map (movedControl 1)) node' := by
  obtain ⟨pace, hpd⟩ : ∃ pace : ℝ → ℝ → ℝ, pace = fun s _ => s + 1 := ⟨_, rfl⟩
  obtain ⟨q, hqd⟩ : ∃ q : List (Name × ℝ × ℝ), q = [(['q'], 500, 600)] := ⟨_, rfl⟩
  have hqn : ∀ x ∈ q, x.1 = ['q'] := by simp [hqd]
  obtain ⟨p, hp, -⟩ := prepare_accepted (-10 ^ 9) (10 ^ 9) _ _ (cart_accepted pace true 0 0 0 0 0 0 0 1 le_rfl q hqn)
  obtain ⟨p', hp', -⟩ := prepare_accepted (-10 ^ 9) (10 ^ 9) _ _ (cart_accepted (fun s => pace (fromOrigin 30 10 s)) true 0 0 0 0 0 0
    0 1 le_rfl q hqn)
  obtain ⟨hn, he, hs, hc, hdi, hcl, ho, hf, hev⟩ := cart_fits le_rfl hp
  obtain ⟨hn', he', hs', hc', hdi', hcl', ho', hf', hev'⟩ := cart_fits le_rfl hp'
  have hlims : ∀ {f : ℝ → ℝ → ℝ} {r : Request ℝ} {p : Problem ℝ}, prepare (-10 ^ 9) (10 ^ 9) (cart f) r = .ok p →
      r.opts.integral = q → ∃ x, p.quantities[0]? = some x ∧ x.restrict = true ∧ x.lowerBound = 500 ∧ x.upperBound = 600 := by
    intro f r p hp hr
    refine ⟨_, (prepare_ok hp).2.quantities (by simp [cart]) 0 ['q'] rfl, ?_⟩
    rw [hr, hqd]
    simp [lastRequest]
  have hmv : movedVehicle (cart pace) 10 = cart fun s => pace (fromOrigin 30 10 s) := rfl
  refine ⟨cart pace, cartRequest true (threeValues true 0 0 0 0 0 0 0) q 1, p, p',
    [fun _ => 0, fun _ => 0, fun _ => 0], [fun _ => 0, fun _ => 0, fun _ => 0], [threeValues true 0 0 0 0 0 0 0],
    cartNodes pace 0 0 0, cartNodes (fun s => pace (fromOrigin 30 10 s)) 0 0 0, rfl, rfl, hp, ?_, rfl, hev, ?_,
    cart_obeys (fun _ _ => rfl) le_rfl hp ?_ ?_ ?_ ?_, ?_⟩
  · rw [show (cart pace).trackLength = 30 from rfl, cartRequest_moved, threeValues_moved, hmv]
    exact hp'
  · rw [hmv, List.map_singleton, threeValues_moved]
    exact hev'
  · simp
  · simp
  · intro h; cases h
  · intro x hx _
    obtain ⟨y, e1, -, e2, e3⟩ := hlims hp rfl
    rw [e1] at hx
    rw [← Option.some.inj hx, e2, e3]
    have : codedIntegral (cart pace) p (cartNodes pace 0 0 0) 0 = 530 := by
      simp only [codedIntegral, he, ho, Finset.sum_range_succ, Finset.sum_range_zero]
      simp [elementLength, hn, cartNodes, integrand, dtds, cart, cartRequest, rightNode, hpd]
      norm_num
    rw [this]
    norm_num
  · intro h
    rw [hmv, List.map_singleton, threeValues_moved] at h
    obtain ⟨y, e1, e0, e2, e3⟩ := hlims hp' rfl
    have := (h.quantities 0 y e1 e0).1
    rw [e2] at this
    have hc : codedIntegral (cart fun s => pace (fromOrigin 30 10 s)) p' (cartNodes (fun s => pace (fromOrigin 30 10 s)) 0 0 0) 0
        = 230 := by
      have g1 : fromOrigin (30 : ℝ) 10 0 = 10 := by norm_num [fromOrigin]
      have g2 : fromOrigin (30 : ℝ) 10 10 = 20 := by norm_num [fromOrigin]
      have g3 : fromOrigin (30 : ℝ) 10 (10 * 2) = 0 := by norm_num [fromOrigin]
      simp only [codedIntegral, he', ho', Finset.sum_range_succ, Finset.sum_range_zero]
      simp [elementLength, hn', cartNodes, integrand, dtds, cart, cartRequest, rightNode, hpd, g1, g2, g3]
      norm_num
    rw [hc] at this
    norm_num at this

/-- A lap in the middle of the track at which the pace is best is the best lap. -/
theorem cart_best {pace : ℝ → ℝ → ℝ} (hpace : ∀ s x, pace s 0 ≤ pace s x) {diss : ℝ} (hd : 0 ≤ diss) :
    ∃ (p : Problem ℝ) (ini : Initial ℝ) (nlp : Nlp ℝ) (lap : Lap ℝ) (node : Nat → Node ℝ),
      setUp (-10 ^ 9) (10 ^ 9) (cart pace) (cartRequest true (threeValues true 0 0 0 0 0 0 diss) [] (1 / 2)) = .ok (p, ini, nlp) ∧
      solveLap (-10 ^ 9) (10 ^ 9) (cart pace) true LapVehicles.bestOpt
        (cartRequest true (threeValues true 0 0 0 0 0 0 diss) [] (1 / 2)) = .ok lap ∧
      lap.success = true ∧ EvaluatedNodes (cart pace) p ⟨lap.inputs, lap.controls⟩ node := by
  obtain ⟨r, hr⟩ : ∃ r, r = cartRequest true (threeValues true 0 0 0 0 0 0 diss) [] (1 / 2) := ⟨_, rfl⟩
  rw [← hr]
  have hwf : (cart pace).WellFormed r.controls.length := by rw [hr]; exact cart_wf pace
  have hcov : ∀ p, prepare (-10 ^ 9) (10 ^ 9) (cart pace) r = .ok p → HypermeshCovers p := by
    intro p hp c hc hk
    rw [hr] at hp
    obtain ⟨-, -, -, hc', -⟩ := cart_fits hd hp
    rw [hc', List.mem_singleton] at hc
    rw [hc] at hk
    cases hk
  obtain ⟨p, ini, nlp, hp, _, _, h4, _⟩ := C189_set_up (-10 ^ 9) (10 ^ 9) (cart pace) r hwf
    (by rw [hr]; exact cart_accepted pace true 0 0 0 0 0 0 diss (1 / 2) hd [] (by simp)) hcov
    (fun h => by rw [hr] at h; cases h)
  have hset := h4 (Or.inl (by rw [hr]; rfl))
  have hp0 := hp
  rw [hr] at hp0
  obtain ⟨hn, he, hs, hc, hdi, hcl, ho, hf, hev⟩ := cart_fits hd hp0
  have hin : p.inputs = [fun _ => 0, fun _ => 0, fun _ => 0] := (prepare_ok hp0).2.inputs
  have hσ : p.opts.sigma = 1 / 2 := by rw [ho]; rfl
  have hnode : ∀ (st : Loaded ℝ) (nd : Nat → Node ℝ), EvaluatedNodes (cart pace) p st nd → ∀ (i : Nat), i < 3 →
      ∃ row, st.inputs[i]? = some row ∧ (nd i).s = 10 * i ∧ dtds (cart pace) (nd i).eq = pace (10 * i) (row 1) := by
    intro st nd hn' i hi
    obtain ⟨row, s, u, e1, e2, e3, e4, e5⟩ := hn' i (by omega)
    have : s = 10 * i := by
      rw [hs] at e2
      interval_cases i <;> simp at e2 <;> rw [← e2] <;> norm_num
    subst this
    refine ⟨row, e1, by rw [e5], ?_⟩
    rw [e5]
    simp [dtds, cart]
  have hzero : ∀ (nd : Nat → Node ℝ), EvaluatedNodes (cart pace) p ⟨p.inputs, p.controls⟩ nd → ∀ i, i < 3 →
      (nd i).s = 10 * i ∧ dtds (cart pace) (nd i).eq = pace (10 * i) 0 := by
    intro nd hn' i hi
    obtain ⟨row, e1, e2, e3⟩ := hnode _ nd hn' i hi
    refine ⟨e2, ?_⟩
    rw [hin] at e1
    have := List.mem_of_getElem? e1
    simp at this
    rw [e3, this]
  have hdur : ∀ (nd : Nat → Node ℝ) (a b c : ℝ), (nd 0).s = 10 * (0 : Nat) → (nd 1).s = 10 * (1 : Nat) → (nd 2).s = 10 * (2 : Nat) →
      dtds (cart pace) (nd 0).eq = a → dtds (cart pace) (nd 1).eq = b → dtds (cart pace) (nd 2).eq = c →
      lapDuration (cart pace) p nd = 10 * (a + b + c) := by
    intro nd a b c s0 s1 s2 e0 e1 e2
    simp only [lapDuration, quadrature, quadratureTo, he, hσ, Finset.sum_range_succ, Finset.sum_range_zero, elementLength,
      rightNode, hn, e0, e1, e2, s0, s1, s2]
    norm_num [show (cart pace).trackLength = 30 from rfl, e0, e1, e2, s0, s1, s2]
    ring
  have hsum : ∀ (ctrls : List (CV ℝ)) (ins : List (Row ℝ)) (nd : Nat → Node ℝ), FitsProblem p ⟨ins, ctrls⟩ →
      EvaluatedNodes (cart pace) p ⟨ins, ctrls⟩ nd → 0 ≤ smoothing (cart pace) p nd ctrls := by
    intro ctrls ins nd hfit hnd
    simp only [smoothing, hdi, if_true, overFullMesh]
    refine List.sum_nonneg ?_
    intro x hx
    obtain ⟨cv, hcv, rfl⟩ := List.mem_map.1 hx
    obtain ⟨cv', hcv', hfr⟩ := hfit.mem (cv' := cv) (List.mem_filter.1 hcv).1
    refine Finset.sum_nonneg fun e hee => mul_nonneg (mul_nonneg ?_ (sq_nonneg _)) ?_
    · rw [hc, List.mem_singleton] at hcv'
      rw [hfr.diss, hcv']
      exact hd
    · rw [he, Finset.mem_range] at hee
      obtain ⟨_, -, s0, -⟩ := hnode _ nd hnd 0 (by omega)
      obtain ⟨_, -, s1, -⟩ := hnode _ nd hnd 1 (by omega)
      obtain ⟨_, -, s2, -⟩ := hnode _ nd hnd 2 (by omega)
      interval_cases e <;> simp [elementLength, hn, s0, s1, s2, cart] <;> norm_num
  have hflat : ∀ nd, smoothing (cart pace) p nd p.controls = 0 := by
    intro nd
    rw [hc]
    simp only [smoothing, hdi, if_true, overFullMesh]
    simp [threeValues, createFullMesh, slopePenalty, he, Finset.sum_range_succ, valueAt, rightNode, hn]
  have hs : (LapVehicles.bestOpt nlp).success = true := by
    refine LapVehicles.bestOpt_success hwf (cart_clockFree pace) hset (hcov p hp) (fun node hnd => ?_) ?_
    · rw [hin, hc]
      refine cart_obeys (pace := pace) (fun i hi => ?_) hd hp0 (by simp) (by simp) (fun h => by cases h) (fun x hx hr => ?_)
      · obtain ⟨row, s, u, e1, e2, e3, e4, e5⟩ := hnd i (by omega)
        have e6 := (hzero node hnd i hi).1
        rw [e5] at e6 ⊢
        rw [hin] at e1
        have := List.mem_of_getElem? e1
        simp at this
        simp only at e6
        rw [this, e6]
        rfl
      · exfalso
        rw [(prepare_ok hp0).2.quantities (by simp [cart]) 0 ['q'] rfl] at hx
        rw [← Option.some.inj hx] at hr
        simp [cartRequest, lastRequest] at hr
    · intro ins ctrls node node0 hfit hnd _ _ hnd0
      obtain ⟨r0, -, s0, t0⟩ := hnode _ node hnd 0 (by omega)
      obtain ⟨r1, -, s1, t1⟩ := hnode _ node hnd 1 (by omega)
      obtain ⟨r2, -, s2, t2⟩ := hnode _ node hnd 2 (by omega)
      obtain ⟨z0, w0⟩ := hzero node0 hnd0 0 (by omega)
      obtain ⟨z1, w1⟩ := hzero node0 hnd0 1 (by omega)
      obtain ⟨z2, w2⟩ := hzero node0 hnd0 2 (by omega)
      rw [hflat, hdur node _ _ _ s0 s1 s2 t0 t1 t2, hdur node0 _ _ _ z0 z1 z2 w0 w1 w2]
      have := hsum ctrls ins node hfit hnd
      have h0 := hpace (10 * (0 : Nat)) (r0 1)
      have h1 := hpace (10 * (1 : Nat)) (r1 1)
      have h2 := hpace (10 * (2 : Nat)) (r2 1)
      linarith
  obtain ⟨lap, g1, g2, _⟩ := (C189_returned _ _ _ _ hwf p ini nlp hset (hcov p hp) LapVehicles.bestOpt
    LapVehicles.bestOpt_sizes true).1 (Or.inl hs)
  obtain ⟨node, t0, -, -, -, -, hnd, -⟩ := C190_own_times _ _ _ _ hwf (cart_clockFree pace) p ini nlp hset (hcov p hp)
    LapVehicles.bestOpt LapVehicles.bestOpt_sizes true lap g1
  exact ⟨p, ini, nlp, lap, node, hset, g1, g2.trans hs, hnd⟩

/-- A best lap of a track that is slower the further from its start line, with a smoothing penalty, takes and costs as much if it
starts at 10 m. -/
example : ∃ (p p' : Problem ℝ) (lap lap' : Lap ℝ) (node node' : Nat → Node ℝ),
    solveLap (-10 ^ 9) (10 ^ 9) (cart fun s x => 1 + s / 10 + x ^ 2) true LapVehicles.bestOpt
      (cartRequest true (threeValues true 0 0 0 0 0 0 1) [] (1 / 2)) = .ok lap ∧ lap.success = true ∧
    solveLap (-10 ^ 9) (10 ^ 9) (movedVehicle (cart fun s x => 1 + s / 10 + x ^ 2) 10) true LapVehicles.bestOpt
      (movedRequest 30 10 1 (cartRequest true (threeValues true 0 0 0 0 0 0 1) [] (1 / 2))) = .ok lap' ∧ lap'.success = true ∧
    lapDuration (movedVehicle (cart fun s x => 1 + s / 10 + x ^ 2) 10) p' node' +
        smoothing (movedVehicle (cart fun s x => 1 + s / 10 + x ^ 2) 10) p' node' lap'.controls =
      lapDuration (cart fun s x => 1 + s / 10 + x ^ 2) p node + smoothing (cart fun s x => 1 + s / 10 + x ^ 2) p node lap.controls := by
  obtain ⟨pace, hpd⟩ : ∃ pace : ℝ → ℝ → ℝ, pace = fun s x => 1 + s / 10 + x ^ 2 := ⟨_, rfl⟩
  rw [← hpd]
  have hp0 : ∀ s x, pace s 0 ≤ pace s x := by
    intro s x
    simp only [hpd]
    nlinarith [sq_nonneg x]
  obtain ⟨p, ini, nlp, lap, node, e1, e2, e3, e4⟩ := cart_best hp0 zero_le_one
  obtain ⟨p', ini', nlp', lap', node', f1, f2, f3, f4⟩ := cart_best (pace := fun s => pace (fromOrigin 30 10 s))
    (fun s => hp0 _) zero_le_one
  have hm : movedRequest (cart pace).trackLength 10 1 (cartRequest true (threeValues true 0 0 0 0 0 0 1) [] (1 / 2)) =
      cartRequest true (threeValues true 0 0 0 0 0 0 1) [] (1 / 2) := by
    rw [show (cart pace).trackLength = 30 from rfl, cartRequest_moved, threeValues_moved]
  have hm' : movedRequest 30 10 1 (cartRequest true (threeValues true 0 0 0 0 0 0 1) [] (1 / 2)) =
      cartRequest true (threeValues true 0 0 0 0 0 0 1) [] (1 / 2) := hm
  refine ⟨p, p', lap, lap', node, node', e2, e3, by rw [hm']; exact f2, f3, ?_⟩
  refine C250_best_partial (-10 ^ 9) (10 ^ 9) (cart pace) (cart_clockFree pace) (by simp [cart])
    (cartRequest true (threeValues true 0 0 0 0 0 0 1) [] (1 / 2)) (cart_wf pace) rfl
    (by simp [cartRequest]; norm_num) rfl 1 10 rfl (by simp [cartRequest, threeValues, createFullMesh]) (Or.inr rfl) (Or.inl rfl)
    p ini nlp e1 p' ini' nlp' (by rw [hm]; exact f1) LapVehicles.bestOpt LapVehicles.bestOpt_sizes LapVehicles.bestOpt_reliable
    LapVehicles.bestOpt_minimises true lap lap' e2 e3 (by rw [hm]; exact f2) f3 node node' e4 f4

/-- Without the penalty their lap times are the same. -/
example : ∃ lap lap' : Lap ℝ,
    solveLap (-10 ^ 9) (10 ^ 9) (cart fun s x => 1 + s / 10 + x ^ 2) true LapVehicles.bestOpt
      (cartRequest true (threeValues true 0 0 0 0 0 0 0) [] (1 / 2)) = .ok lap ∧ lap.success = true ∧
    solveLap (-10 ^ 9) (10 ^ 9) (movedVehicle (cart fun s x => 1 + s / 10 + x ^ 2) 10) true LapVehicles.bestOpt
      (movedRequest 30 10 1 (cartRequest true (threeValues true 0 0 0 0 0 0 0) [] (1 / 2))) = .ok lap' ∧ lap'.success = true ∧
    lap'.laptime = lap.laptime := by
  obtain ⟨pace, hpd⟩ : ∃ pace : ℝ → ℝ → ℝ, pace = fun s x => 1 + s / 10 + x ^ 2 := ⟨_, rfl⟩
  rw [← hpd]
  have hp0 : ∀ s x, pace s 0 ≤ pace s x := by
    intro s x
    simp only [hpd]
    nlinarith [sq_nonneg x]
  obtain ⟨p, ini, nlp, lap, node, e1, e2, e3, e4⟩ := cart_best hp0 le_rfl
  obtain ⟨p', ini', nlp', lap', node', f1, f2, f3, f4⟩ := cart_best (pace := fun s => pace (fromOrigin 30 10 s))
    (fun s => hp0 _) le_rfl
  have hm : movedRequest (cart pace).trackLength 10 1 (cartRequest true (threeValues true 0 0 0 0 0 0 0) [] (1 / 2)) =
      cartRequest true (threeValues true 0 0 0 0 0 0 0) [] (1 / 2) := by
    rw [show (cart pace).trackLength = 30 from rfl, cartRequest_moved, threeValues_moved]
  have hm' : movedRequest 30 10 1 (cartRequest true (threeValues true 0 0 0 0 0 0 0) [] (1 / 2)) =
      cartRequest true (threeValues true 0 0 0 0 0 0 0) [] (1 / 2) := hm
  refine ⟨lap, lap', e2, e3, by rw [hm']; exact f2, f3, ?_⟩
  refine C250_laptime_partial (-10 ^ 9) (10 ^ 9) (cart pace) (cart_clockFree pace) (by simp [cart])
    (cartRequest true (threeValues true 0 0 0 0 0 0 0) [] (1 / 2)) (cart_wf pace) rfl
    (by simp [cartRequest]; norm_num) rfl 1 10 rfl (by simp [cartRequest, threeValues, createFullMesh]) (Or.inr rfl)
    (by simp [cartRequest, threeValues, createFullMesh])
    p ini nlp e1 p' ini' nlp' (by rw [hm]; exact f1) LapVehicles.bestOpt LapVehicles.bestOpt_sizes LapVehicles.bestOpt_reliable
    LapVehicles.bestOpt_minimises true lap lap' e2 e3 (by rw [hm]; exact f2) f3

/-- A lap with a control that varies, started at 20 m. -/
example : ∃ (p p' : Problem ℝ) (node' : Nat → Node ℝ),
    prepare (-10 ^ 9) (10 ^ 9) (cart fun s x => 1 + s / 10 + x ^ 2) (cartRequest true (threeValues true 1 2 4 0 0 0 1) [] (1 / 2)) = .ok p ∧
    prepare (-10 ^ 9) (10 ^ 9) (movedVehicle (cart fun s x => 1 + s / 10 + x ^ 2) 20)
      (movedRequest 30 20 2 (cartRequest true (threeValues true 1 2 4 0 0 0 1) [] (1 / 2))) = .ok p' ∧
    Obeys (movedVehicle (cart fun s x => 1 + s / 10 + x ^ 2) 20) p' 0 0 ([fun _ => 0, fun _ => 0, fun _ => 0].rotate 2)
      ([threeValues true 1 2 4 0 0 0 1].map (movedControl 2)) node' := by
  obtain ⟨pace, hpd⟩ : ∃ pace : ℝ → ℝ → ℝ, pace = fun s x => 1 + s / 10 + x ^ 2 := ⟨_, rfl⟩
  rw [← hpd]
  obtain ⟨p, hp, -⟩ := prepare_accepted (-10 ^ 9) (10 ^ 9) _ _ (cart_accepted pace true 1 2 4 0 0 0 1 (1 / 2) zero_le_one [] (by simp))
  obtain ⟨hn, he, hs, hc, hdi, hcl, ho, hf, hev⟩ := cart_fits zero_le_one hp
  obtain ⟨p', hp', h⟩ := C250_lap_partial (-10 ^ 9) (10 ^ 9) (cart pace) (by simp [cart]) _ p hp rfl (by simp [cartRequest]; norm_num) rfl 2
    20 rfl (by simp [cartRequest]; norm_num) (by simp [cartRequest, threeValues, createFullMesh])
  obtain ⟨node', -, -, -, g, -⟩ := h _ _ _ hf hev
  refine ⟨p, p', node', hp, hp', g (Or.inr rfl) 0 0 (cart_obeys (fun _ _ => rfl) zero_le_one hp (by simp; norm_num) (by simp)
    (fun h => by cases h) fun x hx hr => ?_)⟩
  exfalso
  rw [(prepare_ok hp).2.quantities (by simp [cart]) 0 ['q'] rfl] at hx
  rw [← Option.some.inj hx] at hr
  simp [cartRequest, lastRequest] at hr

end ex

end Verif.Transcription
