import Verif.Lemmas.Control
import Verif.Lemmas.Packing

/-! The constructor's checks. -/

set_option autoImplicit false

namespace Verif.Transcription

open Verif.Control

variable {K : Type*}

theorem checkControls_ok_iff (d : Bool) (n : Nat) (cs : List (CV K)) :
    checkControls d n cs = .ok () ↔ ∀ c ∈ cs, c.kind = .fullMesh → c.controls.length = n ∧
      c.dcontrolsDt.length = if d then 0 else n := by
  induction cs with
  | nil => simp [checkControls]
  | cons c cs ih =>
    unfold checkControls
    by_cases hk : c.kind = .fullMesh
    · by_cases h1 : c.controls.length = n
      · cases d
        · by_cases h2 : c.dcontrolsDt.length = n
          · simpa [hk, h1, h2] using ih
          · simp [hk, h1, h2]
        · by_cases h2 : c.dcontrolsDt.length = 0
          · simp only [hk, h1, h2, ne_eq, not_true, if_true, if_false] at ih ⊢
            rw [ih]
            have h2' : c.dcontrolsDt = [] := List.eq_nil_of_length_eq_zero h2
            simp [h1, h2']
          · simp only [hk, h1, ne_eq, not_true, if_true, if_false, if_pos h2]
            simp only [reduceCtorEq, false_iff]
            intro hh
            exact h2 (hh c (by simp) hk).2
      · simp [hk, h1]
    · simpa [hk] using ih

theorem checkControls_ne_ub (d : Bool) (n : Nat) (cs : List (CV K)) :
    checkControls d n cs ≠ .ub := by
  induction cs with
  | nil => simp [checkControls]
  | cons c cs ih =>
    unfold checkControls
    repeat' split
    all_goals first | exact ih | simp

theorem findName_lt {names : List Name} {nm : Name} :
    findName names nm < names.length ↔ nm ∈ names := by
  unfold findName
  rw [List.findIdx_lt_length]
  simp

theorem findName_of_nodup {names : List Name} (h : names.Nodup) {k : Nat} {nm : Name}
    (hk : names[k]? = some nm) : findName names nm = k := by
  obtain ⟨hlt, he⟩ := List.getElem?_eq_some_iff.1 hk
  unfold findName
  rw [List.findIdx_eq hlt]
  constructor
  · simp [he]
  · intro j hj
    simp only [decide_eq_false_iff_not]
    intro hh
    have := List.pairwise_iff_getElem.1 h j k (by omega) hlt hj
    exact this (hh.trans he.symm)

theorem findName_get {names : List Name} {nm : Name} (h : nm ∈ names) :
    names[findName names nm]? = some nm := by
  have hl := findName_lt.2 h
  rw [List.getElem?_eq_getElem hl]
  have := List.findIdx_getElem (w := hl)
  simp only [decide_eq_true_eq] at this
  exact congrArg some this

theorem setQuantities_ok (names : List Name) (rs : List (Name × K × K)) :
    ∀ qs : List (Quantity K), qs.length = names.length → (∀ r ∈ rs, r.1 ∈ names) →
    ∃ qs', setQuantities names rs qs = .ok qs' ∧ qs'.length = names.length ∧
      (names.Nodup → ∀ (k : Nat) (nm : Name) (q : Quantity K), names[k]? = some nm → qs[k]? = some q →
        qs'[k]? = some (match lastRequest nm rs with
          | some (_, lb, ub) => { q with restrict := true, lowerBound := lb, upperBound := ub }
          | none => q)) := by
  induction rs with
  | nil =>
    intro qs hq _
    refine ⟨qs, rfl, hq, ?_⟩
    intro _ k nm q _ hk
    simpa [lastRequest] using hk
  | cons r rs ih =>
    intro qs hq hn
    have hr := hn r (by simp)
    have hlt := findName_lt.2 hr
    obtain ⟨q0, hq0⟩ : ∃ q, qs[findName names r.1]? = some q := ⟨_, List.getElem?_eq_getElem (by omega)⟩
    obtain ⟨qs', h1, h2, h3⟩ := ih (qs.set (findName names r.1)
      { q0 with restrict := true, lowerBound := r.2.1, upperBound := r.2.2 }) (by simpa using hq)
      (fun d hd => hn d (List.mem_cons_of_mem _ hd))
    refine ⟨qs', ?_, h2, ?_⟩
    · unfold setQuantities
      simp only
      rw [if_neg (by omega), idx_eq_ok.2 hq0]
      exact h1
    · intro hnd k nm q hk hq1
      have hkn := findName_of_nodup hnd hk
      have hlast : lastRequest nm (r :: rs) = (lastRequest nm rs).or (if r.1 = nm then some r else none) := by
        simp only [lastRequest, List.reverse_cons, List.find?_append]
        by_cases h : r.1 = nm <;> simp [h]
      by_cases hrn : r.1 = nm
      · have hkk : findName names r.1 = k := by rw [hrn]; exact hkn
        rw [hkk] at hq0 h3
        rw [hq1] at hq0
        simp only [Option.some.injEq] at hq0
        subst hq0
        have := h3 hnd k nm { q with restrict := true, lowerBound := r.2.1, upperBound := r.2.2 } hk
          (by rw [List.getElem?_set_self]; have := (List.getElem?_eq_some_iff.1 hq1).1; omega)
        rw [this, hlast]
        cases lastRequest nm rs <;> simp [hrn]
      · have hkk : findName names r.1 ≠ k := by
          intro h
          have := findName_get hr
          rw [h, hk] at this
          simp only [Option.some.injEq] at this
          exact hrn this.symm
        have := h3 hnd k nm q hk (by rw [List.getElem?_set_ne hkk]; exact hq1)
        rw [this, hlast]
        simp [hrn]

theorem setQuantities_throw (names : List Name) (rs : List (Name × K × K)) :
    ∀ qs : List (Quantity K), qs.length = names.length → (¬ ∀ r ∈ rs, r.1 ∈ names) →
    setQuantities names rs qs = .throw := by
  induction rs with
  | nil => intro qs _ h; simp at h
  | cons r rs ih =>
    intro qs hq hn
    unfold setQuantities
    by_cases hr : r.1 ∈ names
    · have hlt := findName_lt.2 hr
      obtain ⟨q0, hq0⟩ : ∃ q, qs[findName names r.1]? = some q := ⟨_, List.getElem?_eq_getElem (by omega)⟩
      simp only
      rw [if_neg (by omega), idx_eq_ok.2 hq0]
      apply ih
      · simpa using hq
      · intro hh
        apply hn
        intro d hd
        rcases List.mem_cons.1 hd with rfl | hd
        · exact hr
        · exact hh d hd
    · have h1 : findName names r.1 = names.length := by
        have h2 : findName names r.1 ≤ names.length := List.findIdx_le_length
        have := mt findName_lt.1 hr
        omega
      simp [h1]

section
variable [Field K] [LinearOrder K]

theorem check_ok (cs : List (CV K)) (h : ∀ c ∈ cs, Consistent c) :
    check cs = .ok (cs.map meaningful, ⟨cs.countP (fun c => c.kind = .constant),
      ((cs.filter (fun c => c.kind = .hypermesh)).map (fun c => c.sHypermesh.length)).sum,
      cs.countP (fun c => c.kind = .fullMesh)⟩) := by
  have h1 := checkInputs_ok cs h
  have h2 : ∀ c ∈ cs.map meaningful, c.kind ≠ .unknown := by
    intro c hc
    obtain ⟨d, hd, rfl⟩ := List.mem_map.1 hc
    have := h d hd
    simp only [meaningful]
    cases this <;> simp_all
  have h3 := statsLoop_ok (cs.map meaningful) h2 ⟨0, 0, 0⟩
  have e1 : ∀ k : Kind, (cs.map meaningful).countP (fun c => decide (c.kind = k)) =
      cs.countP (fun c => decide (c.kind = k)) := by
    intro k; rw [List.countP_map]; rfl
  have e2 : (((cs.map meaningful).filter (fun c => decide (c.kind = .hypermesh))).map
      (fun c => c.sHypermesh.length)) =
      (cs.filter (fun c => decide (c.kind = .hypermesh))).map (fun c => c.sHypermesh.length) := by
    rw [List.filter_map, List.map_map]; rfl
  simp only [e1, e2, Nat.zero_add] at h3
  simp [check, h1, computeStatistics, h3]

theorem check_throw (cs : List (CV K)) (h : ¬ ∀ c ∈ cs, Consistent c) : check cs = .throw := by
  obtain ⟨pre, c, post, _, _, _, h4⟩ := checkInputs_throw cs h
  simp [check, h4]

theorem head?_eq_get {α : Type*} (l : List α) (h : 2 ≤ l.length) : ∃ a b, l.head? = some a ∧
    l[0]? = some a ∧ l.getLast? = some b ∧ l[l.length - 1]? = some b := by
  refine ⟨l[0], l[l.length - 1], ?_, ?_, ?_, ?_⟩
  · rw [List.head?_eq_getElem?]; simp
  · simp
  · rw [List.getLast?_eq_getElem?, List.getElem?_eq_getElem (by omega)]
  · rw [List.getElem?_eq_getElem (by omega)]

/-- The two end conditions of `Acceptable`. -/
def EndsOk (v : Vehicle K) (r : Request K) (a b : K) : Prop :=
  (r.isClosed = true → |a| ≤ 1 / 10 ^ 12 ∧ b ≤ v.trackLength - 1 / 10 ^ 10) ∧
  (r.isClosed = false → -(1 / 10 ^ 12) ≤ a ∧ b ≤ v.trackLength)

theorem checkInputs_ends (lowest max : K) (v : Vehicle K) (r : Request K) (cs : List (CV K)) (st : Stats)
    (h2 : 2 ≤ r.s.length) {a b : K} (ha : r.s[0]? = some a) (hb : r.s[r.s.length - 1]? = some b)
    (he : EndsOk v r a b) :
    checkInputs lowest max v r cs st =
      if r.inputs.length ≠ r.s.length then .throw
      else (checkControls r.isDirect r.s.length cs).bind fun _ =>
        (setQuantities v.integralNames r.opts.integral
          (v.integralNames.map fun _ => ⟨0, false, lowest, max⟩)).bind fun qs =>
        .ok { s := if r.isClosed then r.s.set 0 0 else r.s, isClosed := r.isClosed, isDirect := r.isDirect,
              nPoints := r.s.length,
              nElements := if r.isClosed then r.s.length else r.s.length - 1, inputs := r.inputs,
              controls := cs, stats := st, quantities := qs, warm := r.warm, opts := r.opts } := by
  unfold checkInputs
  rw [if_neg (by omega)]
  simp only [idx_eq_ok.2 ha, idx_eq_ok.2 hb, Res.bind_ok]
  rw [if_neg, if_neg, if_neg, if_neg]
  · rintro ⟨h, h'⟩
    exact absurd (he.2 (by simpa using h)).2 (not_le.2 h')
  · rintro ⟨h, h'⟩
    exact absurd (he.2 (by simpa using h)).1 (not_le.2 h')
  · rintro ⟨h, h'⟩
    exact absurd (he.1 h).2 (not_le.2 h')
  · rintro ⟨h, h'⟩
    exact absurd (he.1 h).1 (not_le.2 h')

theorem checkInputs_ends_throw (lowest max : K) (v : Vehicle K) (r : Request K) (cs : List (CV K)) (st : Stats)
    (h2 : 2 ≤ r.s.length) {a b : K} (ha : r.s[0]? = some a) (hb : r.s[r.s.length - 1]? = some b)
    (he : ¬ EndsOk v r a b) : checkInputs lowest max v r cs st = .throw := by
  unfold checkInputs
  rw [if_neg (by omega)]
  simp only [idx_eq_ok.2 ha, idx_eq_ok.2 hb, Res.bind_ok]
  by_cases h : r.isClosed = true
  · by_cases h1 : |a| > 1 / 10 ^ 12
    · rw [if_pos ⟨h, h1⟩]
    · by_cases h3 : b > v.trackLength - 1 / 10 ^ 10
      · rw [if_neg (fun hh => h1 hh.2), if_pos ⟨h, h3⟩]
      · exact absurd ⟨fun _ => ⟨not_lt.1 h1, not_lt.1 h3⟩, fun hf => by simp [h] at hf⟩ he
  · by_cases h1 : a < -(1 / 10 ^ 12)
    · rw [if_neg (fun hh => h hh.1), if_neg (fun hh => h hh.1), if_pos ⟨h, h1⟩]
    · by_cases h3 : b > v.trackLength
      · rw [if_neg (fun hh => h hh.1), if_neg (fun hh => h hh.1), if_neg (fun hh => h1 hh.2), if_pos ⟨h, h3⟩]
      · exact absurd ⟨fun hf => absurd hf h, fun _ => ⟨not_lt.1 h1, not_lt.1 h3⟩⟩ he

theorem prepare_accepted (lowest max : K) (v : Vehicle K) (r : Request K) (h : Acceptable v r) :
    ∃ p, prepare lowest max v r = .ok p ∧ Accepted lowest max v r p := by
  obtain ⟨a, b, h1, h2, h3, h4⟩ := head?_eq_get r.s h.two
  have he : EndsOk v r a b := ⟨fun hc => h.closedEnds hc a b h1 h3, fun hc => h.openEnds hc a b h1 h3⟩
  have hcc : checkControls r.isDirect r.s.length (r.controls.map meaningful) = .ok () := by
    rw [checkControls_ok_iff]
    intro c hc hk
    obtain ⟨d, hd, rfl⟩ := List.mem_map.1 hc
    exact h.full d hd hk
  obtain ⟨qs, hq1, hq2, hq3⟩ := setQuantities_ok v.integralNames r.opts.integral
    (v.integralNames.map fun _ => ⟨0, false, lowest, max⟩) (by simp) h.names
  refine ⟨⟨if r.isClosed then r.s.set 0 0 else r.s, r.isClosed, r.isDirect, r.s.length,
    if r.isClosed then r.s.length else r.s.length - 1, r.inputs, r.controls.map meaningful,
    ⟨r.controls.countP (fun c => c.kind = .constant),
      ((r.controls.filter (fun c => c.kind = .hypermesh)).map (fun c => c.sHypermesh.length)).sum,
      r.controls.countP (fun c => c.kind = .fullMesh)⟩, qs, r.warm, r.opts⟩, ?_, ?_⟩
  · unfold prepare
    rw [check_ok _ h.consistent]
    simp only [Res.bind_ok]
    rw [checkInputs_ends lowest max v r _ _ h.two h2 h4 he, if_neg (by simpa using h.inputs), hcc]
    simp only [Res.bind_ok, hq1, h.ready, if_true]
  · constructor
    · simp only
      cases hs : r.s with
      | nil => rw [hs] at h2; simp at h2
      | cons x xs => simp
    · rfl
    · rfl
    · rfl
    · rfl
    · rfl
    · rfl
    · rfl
    · exact hq2
    · intro hnd k nm hk
      have hkl := (List.getElem?_eq_some_iff.1 hk).1
      exact hq3 hnd k nm ⟨0, false, lowest, max⟩ hk (by simp [hkl])
    · rfl
    · rfl

theorem prepare_rejected (lowest max : K) (v : Vehicle K) (r : Request K) (h : ¬ Acceptable v r) :
    prepare lowest max v r = .throw := by
  unfold prepare
  by_cases hc : ∀ c ∈ r.controls, Consistent c
  · rw [check_ok _ hc]
    simp only [Res.bind_ok]
    by_cases h2 : 2 ≤ r.s.length
    · obtain ⟨a, b, h1, h1', h3, h4⟩ := head?_eq_get r.s h2
      by_cases he : EndsOk v r a b
      · rw [checkInputs_ends lowest max v r _ _ h2 h1' h4 he]
        by_cases hi : r.inputs.length = r.s.length
        · rw [if_neg (by simpa using hi)]
          by_cases hf : checkControls r.isDirect r.s.length (r.controls.map meaningful) = .ok ()
          · rw [hf]
            simp only [Res.bind_ok]
            by_cases hn : ∀ q ∈ r.opts.integral, q.1 ∈ v.integralNames
            · obtain ⟨qs, hq1, hq2, hq3⟩ := setQuantities_ok v.integralNames r.opts.integral
                (v.integralNames.map fun _ => ⟨0, false, lowest, max⟩) (by simp) hn
              rw [hq1]
              simp only [Res.bind_ok]
              by_cases hr : v.ready = true
              · exfalso
                apply h
                rw [checkControls_ok_iff] at hf
                refine ⟨h2, ?_, ?_, hi, hc, ?_, hn, hr⟩
                · intro hcl a' b' ha hb
                  rw [h1] at ha; rw [h3] at hb
                  simp only [Option.some.injEq] at ha hb
                  subst ha; subst hb
                  exact he.1 hcl
                · intro hcl a' b' ha hb
                  rw [h1] at ha; rw [h3] at hb
                  simp only [Option.some.injEq] at ha hb
                  subst ha; subst hb
                  exact he.2 hcl
                · intro c hm hk
                  exact hf (meaningful c) (List.mem_map_of_mem hm) hk
              · simp [hr]
            · rw [setQuantities_throw _ _ _ (by simp) hn]; rfl
          · have : checkControls r.isDirect r.s.length (r.controls.map meaningful) = .throw := by
              cases hh : checkControls r.isDirect r.s.length (r.controls.map meaningful) with
              | ok u => exact absurd hh hf
              | throw => rfl
              | ub => exact absurd hh (checkControls_ne_ub _ _ _)
            rw [this]; rfl
        · rw [if_pos (by simpa using hi)]; rfl
      · rw [checkInputs_ends_throw lowest max v r _ _ h2 h1' h4 he]; rfl
    · have : checkInputs lowest max v r (r.controls.map meaningful)
          ⟨r.controls.countP (fun c => c.kind = .constant),
          ((r.controls.filter (fun c => c.kind = .hypermesh)).map (fun c => c.sHypermesh.length)).sum,
          r.controls.countP (fun c => c.kind = .fullMesh)⟩ = .throw := by
        unfold checkInputs
        rw [if_pos (by omega)]
      rw [this]; rfl
  · rw [check_throw _ hc]; rfl

theorem prepare_ok {lowest max : K} {v : Vehicle K} {r : Request K} {p : Problem K}
    (hp : prepare lowest max v r = .ok p) : Acceptable v r ∧ Accepted lowest max v r p := by
  by_cases h : Acceptable v r
  · obtain ⟨p', h1, h2⟩ := prepare_accepted lowest max v r h
    rw [hp] at h1
    simp only [Res.ok.injEq] at h1
    subst h1
    exact ⟨h, h2⟩
  · rw [prepare_rejected lowest max v r h] at hp
    simp at hp

theorem nOther_of_consistent (cs : List (CV K)) (h : ∀ c ∈ cs, Consistent c) :
    cs.countP (fun c => c.kind = .constant) +
      ((cs.filter (fun c => c.kind = .hypermesh)).map (fun c => c.sHypermesh.length)).sum = nOther cs := by
  induction cs with
  | nil => rfl
  | cons c cs ih =>
    have ih' := ih (fun d hd => h d (List.mem_cons_of_mem _ hd))
    have hc := h c (by simp)
    rw [nOther_cons]
    cases hc with
    | dontOptimize k _ _ _ => simpa [k] using ih'
    | constant k _ h2 _ => simp [k, h2]; omega
    | hypermesh k h2 _ => simp [k, h2]; omega
    | fullMesh k _ _ _ => simpa [k] using ih'

theorem prepare_consistent {lowest max : K} {v : Vehicle K} {r : Request K} {p : Problem K}
    (hp : prepare lowest max v r = .ok p) : ∀ c ∈ p.controls, Consistent c := by
  obtain ⟨h, g⟩ := prepare_ok hp
  intro c hc
  rw [g.controls] at hc
  obtain ⟨d, hd, rfl⟩ := List.mem_map.1 hc
  exact (h.consistent d hd).meaningful

theorem prepare_shape {lowest max : K} {v : Vehicle K} {r : Request K} {p : Problem K}
    (hp : prepare lowest max v r = .ok p) : Shape p := by
  obtain ⟨h, g⟩ := prepare_ok hp
  have hm : ∀ c ∈ p.controls, ∃ d ∈ r.controls, meaningful d = c := by
    intro c hc; rw [g.controls] at hc; exact List.mem_map.1 hc
  have hcon : ∀ c ∈ p.controls, Consistent c := by
    intro c hc
    obtain ⟨d, hd, rfl⟩ := hm c hc
    exact (h.consistent d hd).meaningful
  constructor
  · rw [g.nPoints]; exact h.two
  · rw [g.s, g.nPoints]
    split
    · have := h.two; simp; omega
    · rfl
  · rw [g.inputs, g.nPoints]; exact h.inputs
  · rw [g.nElements, g.nPoints, g.isClosed, firstNode]; split <;> simp
  · intro c hc hk
    cases hcon c hc <;> simp_all
  · intro c hc hk
    obtain ⟨d, hd, rfl⟩ := hm c hc
    rw [g.nPoints]; exact (h.full d hd hk).1
  · intro c hc hk
    obtain ⟨d, hd, rfl⟩ := hm c hc
    rw [g.nPoints, g.isDirect]; exact (h.full d hd hk).2
  · intro c hc hk
    cases hcon c hc <;> simp_all
  · intro c hc k1 k2 k3
    cases hcon c hc <;> simp_all
  · intro c hc
    cases hcon c hc <;> simp_all
  · rw [g.stats, g.controls, nFullMesh, List.countP_map]; rfl
  · rw [g.stats, ← nOther_of_consistent _ hcon, g.controls]
    simp only
    congr 1
    · rw [List.countP_map]; rfl
    · rw [List.filter_map, List.map_map]; rfl

end

end Verif.Transcription
