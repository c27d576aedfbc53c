import Verif.Lemmas.Interp
import Mathlib.Tactic.NormNum
import Mathlib.Tactic.IntervalCases

/-! Property theorems C23, C24, C25, C26, C27: declaration and evaluation of model parameters. -/

set_option autoImplicit false

namespace Verif.Parameter

variable {K : Type*}

/-! ## C23 -/

/-- C23: creating a varying parameter succeeds exactly for the acceptable arguments (and stores
them unchanged); every other request throws; it is never undefined behaviour. -/
theorem C23_creation_accepted_iff [LinearOrder K] (path : String) (aliases : List String)
    (values : List K) (mesh : List (K × Nat)) :
    (Acceptable aliases values mesh →
      mkVarying path aliases values mesh = .ok ⟨path, aliases, values, mesh⟩) ∧
    (¬ Acceptable aliases values mesh → mkVarying path aliases values mesh = .throw) := by
  constructor
  · intro h; exact (mkVarying_ok_iff _ _ _ _ _).2 ⟨h, rfl⟩
  · intro h
    cases hm : mkVarying path aliases values mesh with
    | ok p => exact absurd ((mkVarying_ok_iff _ _ _ _ _).1 hm).1 h
    | throw => rfl
    | ub => exact absurd hm (mkVarying_ne_ub _ _ _ _)

/-- A parameter with two values on three checkpoints, used as witness below. -/
def sample : Param ℚ :=
  ⟨"vehicle/a", ["a1", "a2"], [10, 20], [(0, 0), (4, 1), (6, 0)]⟩

theorem sample_acceptable : Acceptable sample.aliases sample.values sample.mesh := by
  refine ⟨by simp [sample], by simp [sample], ?_, ?_, ?_⟩
  · simp [sample]; norm_num
  · simp [sample]
  · intro i hi
    have hi : i < 2 := by simpa [sample] using hi
    interval_cases i
    · exact ⟨(0, 0), by simp [sample], rfl⟩
    · exact ⟨(4, 1), by simp [sample], rfl⟩

example : mkVarying "p" ["a1", "a2"] [(10 : ℚ), 20] [(0, 0), (4, 1), (6, 0)] =
    .ok ⟨"p", ["a1", "a2"], [10, 20], [(0, 0), (4, 1), (6, 0)]⟩ :=
  (C23_creation_accepted_iff "p" _ _ _).1 sample_acceptable

/-- repeated checkpoint: rejected -/
example : mkVarying "p" ["a1", "a2"] [(10 : ℚ), 20] [(0, 0), (0, 1)] = .throw :=
  (C23_creation_accepted_iff "p" _ _ _).2 (fun h => by simpa using h.increasing)

/-! ## C24 -/

/-- C24: between two neighbouring checkpoints the parameter is the linear blend of the two
attached values; in particular it lies between them, and at the left checkpoint it is exactly
the attached value. -/
theorem C24_interpolates [Field K] [LinearOrder K] [IsStrictOrderedRing K] (p : Param K)
    (h : Acceptable p.aliases p.values p.mesh) (i : Nat) (a b va vb s : K)
    (ha : NodeAt p i a va) (hb : NodeAt p (i + 1) b vb) (h1 : a ≤ s) (h2 : s < b) :
    ∃ t : K, 0 ≤ t ∧ t < 1 ∧ s = (1 - t) * a + t * b ∧
      eval p s = .ok ((1 - t) * va + t * vb) ∧
      min va vb ≤ (1 - t) * va + t * vb ∧ (1 - t) * va + t * vb ≤ max va vb ∧
      (s = a → eval p s = .ok va) := by
  obtain ⟨ja, hja, hva⟩ := ha
  obtain ⟨jb, hjb, hvb⟩ := hb
  have hab : a < b := lt_of_le_of_lt h1 h2
  have hpos : (0 : K) < b - a := sub_pos.2 hab
  have key := eval_interval h hja hjb hva hvb h1 h2
  have t0 : 0 ≤ (s - a) / (b - a) := div_nonneg (sub_nonneg.2 h1) hpos.le
  have t1 : (s - a) / (b - a) < 1 := by rw [div_lt_one hpos]; linarith
  have e : va + (s - a) / (b - a) * (vb - va) =
      (1 - (s - a) / (b - a)) * va + (s - a) / (b - a) * vb := by ring
  have hs : s = (1 - (s - a) / (b - a)) * a + (s - a) / (b - a) * b := by
    field_simp; ring
  refine ⟨(s - a) / (b - a), t0, t1, hs, by rw [key, e], ?_, ?_, ?_⟩
  · generalize (s - a) / (b - a) = t at *
    rcases le_total va vb with hv | hv
    · rw [min_eq_left hv]; nlinarith
    · rw [min_eq_right hv]; nlinarith
  · generalize (s - a) / (b - a) = t at *
    rcases le_total va vb with hv | hv
    · rw [max_eq_right hv]; nlinarith
    · rw [max_eq_left hv]; nlinarith
  · rintro rfl
    rw [key]; simp

/-- C24, totality: a constructed parameter (constant or varying) has a value at every
arclength: evaluation never throws and never is undefined behaviour. -/
theorem C24_total [Field K] [LinearOrder K] [IsStrictOrderedRing K] (p : Param K)
    (h : WellFormed p) (s : K) : ∃ v, eval p s = .ok v := by
  cases h with
  | constant hv ha hm =>
    match hvals : p.values, hv with
    | [v], _ => exact ⟨v, by simp [eval, hvals, front]⟩
  | varying h =>
    have h2 := h.two
    have hm2 := h.mesh_two
    have hv0 : p.values[0]? = some p.values[0] := List.getElem?_eq_getElem (by omega)
    have hvl : p.values[p.values.length - 1]? = some p.values[p.values.length - 1] :=
      List.getElem?_eq_getElem (by omega)
    have hm0 : p.mesh[0]? = some p.mesh[0] := List.getElem?_eq_getElem (by omega)
    have hml : p.mesh[p.mesh.length - 1]? = some p.mesh[p.mesh.length - 1] :=
      List.getElem?_eq_getElem (by omega)
    rcases lt_or_ge s p.mesh[0].1 with hlt | hge
    · exact ⟨_, eval_before h hm0 hv0 hlt⟩
    rcases lt_or_ge s p.mesh[p.mesh.length - 1].1 with hlt' | hge'
    swap
    · exact ⟨_, eval_after h hml hvl hge'⟩
    -- find the interval
    have : ∃ i, ∃ (hi : i + 1 < p.mesh.length), p.mesh[i].1 ≤ s ∧ s < p.mesh[i+1].1 := by
      by_contra hcon
      push Not at hcon
      have hall : ∀ i (hi : i < p.mesh.length), p.mesh[i].1 ≤ s := by
        intro i
        induction i with
        | zero => intro _; exact hge
        | succ i ih => intro hi; exact hcon i hi (ih (by omega))
      exact absurd (hall (p.mesh.length - 1) (by omega)) (not_le.2 hlt')
    obtain ⟨i, hi, hs1, hs2⟩ := this
    have hr1 := h.refers p.mesh[i] (List.getElem_mem _)
    have hr2 := h.refers p.mesh[i+1] (List.getElem_mem _)
    exact ⟨_, eval_interval h (List.getElem?_eq_getElem (by omega)) (List.getElem?_eq_getElem hi)
      (List.getElem?_eq_getElem hr1) (List.getElem?_eq_getElem hr2) hs1 hs2⟩

example : ∃ t : ℚ, 0 ≤ t ∧ t < 1 ∧ (5 : ℚ) = (1 - t) * 4 + t * 6 ∧
    eval sample 5 = .ok ((1 - t) * 20 + t * 10) :=
  have ⟨t, h0, h1, hs, he, _⟩ := C24_interpolates sample sample_acceptable 1 4 6 20 10 5
    ⟨1, rfl, rfl⟩ ⟨0, rfl, rfl⟩ (by norm_num) (by norm_num)
  ⟨t, h0, h1, hs, he⟩

example : ∃ v, eval sample (-3) = .ok v := C24_total sample (.varying sample_acceptable) _

/-! ## C25 -/

/-- C25 is false for the code: `sample` is an accepted parameter whose last checkpoint (s = 6)
carries the value 10, yet from s = 6 on the parameter evaluates to 20 (the last value of the
value list), so it also jumps at the last checkpoint. -/
theorem C25_false_outside_mesh :
    ∃ p : Param ℚ, Acceptable p.aliases p.values p.mesh ∧ NodeAt p 2 6 10 ∧
      p.mesh.length = 3 ∧ eval p 6 = .ok 20 ∧ eval p 7 = .ok 20 := by
  refine ⟨sample, sample_acceptable, ⟨0, rfl, rfl⟩, rfl, ?_, ?_⟩
  · exact eval_after sample_acceptable (a := (6, 0)) rfl rfl (le_refl _)
  · exact eval_after sample_acceptable (a := (6, 0)) rfl rfl (by norm_num)

/-- What the code does before the first and from the last checkpoint on: the first and the last
VALUE of the list (whatever the checkpoints refer to). -/
theorem C25_outside_partial [Field K] [LinearOrder K] (p : Param K)
    (h : Acceptable p.aliases p.values p.mesh) (s a va b vb : K)
    (ha : NodeAt p 0 a va) (hb : NodeAt p (p.mesh.length - 1) b vb)
    (hfirst : p.values[0]? = some va) (hlast : p.values[p.values.length - 1]? = some vb) :
    (s < a → eval p s = .ok va) ∧ (b ≤ s → eval p s = .ok vb) := by
  obtain ⟨ja, hja, _⟩ := ha
  obtain ⟨jb, hjb, _⟩ := hb
  exact ⟨fun hs => eval_before h hja hfirst hs, fun hs => eval_after h hjb hlast hs⟩

/-- C25, partial: if the first checkpoint refers to the first value and the last checkpoint to
the last value, the parameter is a continuous function of the arclength on the whole line.
Missing with respect to C25: the hypothesis on the end checkpoints. -/
theorem C25_continuous_partial (p : Param ℝ) (h : Acceptable p.aliases p.values p.mesh)
    (a va b vb : ℝ) (ha : NodeAt p 0 a va) (hb : NodeAt p (p.mesh.length - 1) b vb)
    (hfirst : p.values[0]? = some va) (hlast : p.values[p.values.length - 1]? = some vb) :
    ∃ f : ℝ → ℝ, Continuous f ∧ ∀ s, eval p s = .ok (f s) := by
  obtain ⟨ja, hja, hva⟩ := ha
  obtain ⟨jb, hjb, hvb⟩ := hb
  let nodes : List (ℝ × ℝ) := p.mesh.map (fun c => (c.1, (p.values[c.2]?).getD 0))
  have hsorted : nodes.Pairwise (fun a b => a.1 < b.1) := by
    simp only [nodes, List.pairwise_map]; exact h.increasing
  have hm2 := h.mesh_two
  have hnode : ∀ i (hi : i < p.mesh.length), ∃ v, p.values[p.mesh[i].2]? = some v ∧
      nodes[i]? = some (p.mesh[i].1, v) := by
    intro i hi
    have hr := h.refers p.mesh[i] (List.getElem_mem _)
    refine ⟨p.values[p.mesh[i].2], List.getElem?_eq_getElem hr, ?_⟩
    simp [nodes, hi, hr]
  refine ⟨interp nodes, interp_continuous nodes hsorted, ?_⟩
  intro s
  have hm0 : p.mesh[0]'(by omega) = (a, ja) := (List.getElem?_eq_some_iff.1 hja).2
  have hml : p.mesh[p.mesh.length - 1]'(by omega) = (b, jb) := (List.getElem?_eq_some_iff.1 hjb).2
  rcases lt_or_ge s a with hlt | hge
  · rw [eval_before h hja hfirst hlt]
    obtain ⟨v, hv, hn⟩ := hnode 0 (by omega)
    rw [hm0] at hv hn
    have : v = va := by simpa [hva] using hv.symm
    subst this
    match hnn : nodes, hn with
    | n :: rest, hn =>
      simp only [List.getElem?_cons_zero, Option.some.injEq] at hn
      rw [interp_at_head n rest s (by rw [hn]; exact hlt.le), hn]
  rcases lt_or_ge s b with hlt' | hge'
  swap
  · rw [eval_after h hjb hlast hge']
    obtain ⟨v, hv, hn⟩ := hnode (p.mesh.length - 1) (by omega)
    rw [hml] at hv hn
    have : v = vb := by simpa [hvb] using hv.symm
    subst this
    have hlen : nodes.length = p.mesh.length := by simp [nodes]
    rw [interp_last nodes (b, v) s hsorted (by rw [hlen]; exact hn) hge']
  have : ∃ i, ∃ (hi : i + 1 < p.mesh.length), p.mesh[i].1 ≤ s ∧ s < p.mesh[i+1].1 := by
    by_contra hcon
    push Not at hcon
    have hall : ∀ i (hi : i < p.mesh.length), p.mesh[i].1 ≤ s := by
      intro i
      induction i with
      | zero => intro _; rw [hm0]; exact hge
      | succ i ih => intro hi; exact hcon i hi (ih (by omega))
    have := hall (p.mesh.length - 1) (by omega)
    rw [hml] at this
    exact absurd this (not_le.2 hlt')
  obtain ⟨i, hi, hs1, hs2⟩ := this
  obtain ⟨v1, hv1, hn1⟩ := hnode i (by omega)
  obtain ⟨v2, hv2, hn2⟩ := hnode (i+1) hi
  rw [eval_interval h (List.getElem?_eq_getElem (by omega)) (List.getElem?_eq_getElem hi)
    hv1 hv2 hs1 hs2, interp_interval nodes i _ _ s hsorted hn1 hn2 hs1 hs2]

/-- A parameter meeting the hypotheses of the partial theorems. -/
def sample2 : Param ℝ := ⟨"vehicle/b", ["b1", "b2"], [10, 20], [(0, 0), (4, 1), (6, 0), (9, 1)]⟩

theorem sample2_acceptable : Acceptable sample2.aliases sample2.values sample2.mesh := by
  refine ⟨by simp [sample2], by simp [sample2], ?_, ?_, ?_⟩
  · simp [sample2]; norm_num
  · simp [sample2]
  · intro i hi
    have hi : i < 2 := by simpa [sample2] using hi
    interval_cases i
    · exact ⟨(0, 0), by simp [sample2], rfl⟩
    · exact ⟨(4, 1), by simp [sample2], rfl⟩

example : ∃ f : ℝ → ℝ, Continuous f ∧ ∀ s, eval sample2 s = .ok (f s) :=
  C25_continuous_partial sample2 sample2_acceptable 0 10 9 20 ⟨0, rfl, rfl⟩ ⟨1, rfl, rfl⟩ rfl rfl

example : eval sample2 (-1) = .ok 10 :=
  (C25_outside_partial sample2 sample2_acceptable (-1) 0 10 9 20 ⟨0, rfl, rfl⟩ ⟨1, rfl, rfl⟩
    rfl rfl).1 (by norm_num)

/-! ## C26 -/

/-- C26: writing a vector of the right length succeeds, reading back returns that vector, and
every parameter keeps its path, aliases, mesh and number of values. -/
theorem C26_set_then_get [Field K] (ps : List (Param K)) (input : List K)
    (hlen : input.length = (ps.map (fun p => p.values.length)).sum) :
    ∃ ps', setAll ps input = .ok ps' ∧ getAll ps' = .ok input ∧
      ps'.map (fun q => (q.path, q.aliases, q.mesh, q.values.length)) =
        ps.map (fun q => (q.path, q.aliases, q.mesh, q.values.length)) := by
  obtain ⟨ps', h1, h2, h3⟩ := setLoop_ok ps input hlen
  refine ⟨ps', by simp [setAll, numberOfParameters_eq, hlen, h1], ?_, h3⟩
  unfold getAll
  have := gatherLoop_ok (K := K) (·.values) ps' (fun _ _ => rfl) []
    (List.replicate (numberOfParameters ps') 0) (by simp [numberOfParameters_eq])
  simp only [List.nil_append, List.length_nil] at this
  rw [this, ← h2]

/-- C26: writing back what was read changes nothing. -/
theorem C26_get_then_set [Field K] (ps : List (Param K)) :
    ∃ v, getAll ps = .ok v ∧ setAll ps v = .ok ps := by
  refine ⟨(ps.map (·.values)).flatten, ?_, ?_⟩
  · unfold getAll
    have := gatherLoop_ok (K := K) (·.values) ps (fun _ _ => rfl) []
      (List.replicate (numberOfParameters ps) 0) (by simp [numberOfParameters_eq])
    simpa using this
  · have : (ps.map (·.values)).flatten.length = numberOfParameters ps := by
      rw [numberOfParameters_eq]; simp [List.length_flatten, Function.comp_def]
    simp [setAll, this, setLoop_flatten]

/-- C26: the aliases are listed in the same order as the values (for constructed parameters),
one per value: the `k`-th alias belongs to the `k`-th entry of the flat vector. -/
theorem C26_aliases_parallel [Field K] [LinearOrder K] (ps : List (Param K))
    (h : ∀ p ∈ ps, WellFormed p) :
    ∃ al v, getAliases ps = .ok al ∧ getAll ps = .ok v ∧ al.length = v.length ∧
      al.zip v = (ps.map (fun p => p.aliases.zip p.values)).flatten := by
  have hlen : ∀ p ∈ ps, p.aliases.length = p.values.length := by
    intro p hp
    cases h p hp with
    | constant hv ha hm => omega
    | varying h => exact h.one_alias_each
  refine ⟨(ps.map (·.aliases)).flatten, (ps.map (·.values)).flatten, ?_, ?_, ?_, ?_⟩
  · unfold getAliases
    have := gatherLoop_ok (K := K) (·.aliases) ps hlen []
      (List.replicate (numberOfParameters ps) "") (by simp [numberOfParameters_eq])
    simpa using this
  · unfold getAll
    have := gatherLoop_ok (K := K) (·.values) ps (fun _ _ => rfl) []
      (List.replicate (numberOfParameters ps) 0) (by simp [numberOfParameters_eq])
    simpa using this
  · clear h
    induction ps with
    | nil => rfl
    | cons p ps ih =>
      simp only [List.map_cons, List.flatten_cons, List.length_append]
      rw [hlen p (by simp), ih (fun q hq => hlen q (List.mem_cons_of_mem _ hq))]
  · clear h
    induction ps with
    | nil => rfl
    | cons p ps ih =>
      simp only [List.map_cons, List.flatten_cons]
      rw [List.zip_append (hlen p (by simp)), ih (fun q hq => hlen q (List.mem_cons_of_mem _ hq))]

example : ∃ ps', setAll [mkConstant "x" "ax" (1 : ℚ), sample] [7, 8, 9] = .ok ps' ∧
    getAll ps' = .ok [7, 8, 9] :=
  have ⟨ps', h1, h2, _⟩ := C26_set_then_get [mkConstant "x" "ax" (1 : ℚ), sample] [7, 8, 9]
    (by simp [sample, mkConstant])
  ⟨ps', h1, h2⟩

example : ∃ v, getAll [mkConstant "x" "ax" (1 : ℚ), sample] = .ok v ∧
    setAll [mkConstant "x" "ax" (1 : ℚ), sample] v = .ok [mkConstant "x" "ax" 1, sample] :=
  C26_get_then_set _

example : ∃ al v, getAliases [sample] = .ok al ∧ getAll [sample] = .ok v ∧ al.length = v.length :=
  have ⟨al, v, h1, h2, h3, _⟩ := C26_aliases_parallel [sample]
    (by intro p hp; simp only [List.mem_singleton] at hp; subst hp; exact .varying sample_acceptable)
  ⟨al, v, h1, h2, h3⟩

/-! ## C27 -/

/-- C27: after any history of declarations no two parameters have the same path and every
parameter is well formed. -/
theorem C27_paths_unique [LinearOrder K] (ds : List (Decl K)) :
    ((declareAll ds).map (·.path)).Nodup ∧ ∀ p ∈ declareAll ds, WellFormed p := by
  suffices h : ∀ (ds : List (Decl K)) (ps : List (Param K)),
      (ps.map (·.path)).Nodup → (∀ p ∈ ps, WellFormed p) →
      ((ds.foldl addStep ps).map (·.path)).Nodup ∧ ∀ p ∈ ds.foldl addStep ps, WellFormed p from
    h ds [] (by simp) (by simp)
  intro ds
  induction ds with
  | nil => intro ps h1 h2; exact ⟨h1, h2⟩
  | cons d ds ih =>
    intro ps h1 h2
    rw [List.foldl_cons]
    have build_path : ∀ p, d.build = .ok p → p.path = d.path ∧ WellFormed p := by
      intro p hb
      cases d with
      | constant path al v =>
        simp only [Decl.build, Res.ok.injEq] at hb
        subst hb
        exact ⟨rfl, .constant rfl rfl rfl⟩
      | varying path al vs m =>
        obtain ⟨hacc, rfl⟩ := (mkVarying_ok_iff _ _ _ _ _).1 hb
        exact ⟨rfl, .varying hacc⟩
    apply ih
    · unfold addStep addParameter
      by_cases hdup : ps.any (fun p => p.path == d.path) = true
      · simpa [hdup] using h1
      · simp only [hdup]
        cases hb : d.build with
        | ok p =>
          obtain ⟨hp, _⟩ := build_path p hb
          simp only [Bool.false_eq_true, if_false, Res.bind_ok, List.map_append, List.map_cons,
            List.map_nil]
          rw [List.nodup_append]
          refine ⟨h1, by simp, ?_⟩
          intro a ha b hb' hab
          simp only [List.mem_singleton] at hb'
          obtain ⟨q, hq, hqa⟩ := List.mem_map.1 ha
          apply hdup
          rw [List.any_eq_true]
          exact ⟨q, hq, by simp [hqa, hab, hb', hp]⟩
        | throw => simpa using h1
        | ub => simpa using h1
    · unfold addStep addParameter
      by_cases hdup : ps.any (fun p => p.path == d.path) = true
      · simpa [hdup] using h2
      · simp only [hdup]
        cases hb : d.build with
        | ok p =>
          obtain ⟨_, hw⟩ := build_path p hb
          intro q hq
          simp only [Bool.false_eq_true, if_false, Res.bind_ok, List.mem_append,
            List.mem_singleton] at hq
          rcases hq with hq | rfl
          · exact h2 q hq
          · exact hw
        | throw => simpa using h2
        | ub => simpa using h2

/-- C27: a declaration is accepted exactly when its path is new and its arguments are
acceptable; then it is appended, nothing else changes; otherwise it throws and the list of
parameters is unchanged. -/
theorem C27_declaration_atomic [LinearOrder K] (ps : List (Param K)) (path : String)
    (aliases : List String) (values : List K) (mesh : List (K × Nat)) :
    ((∀ p ∈ ps, p.path ≠ path) ∧ Acceptable aliases values mesh →
      addParameter ps (.varying path aliases values mesh) =
          .ok (ps ++ [⟨path, aliases, values, mesh⟩]) ∧
      addStep ps (.varying path aliases values mesh) = ps ++ [⟨path, aliases, values, mesh⟩]) ∧
    (¬ ((∀ p ∈ ps, p.path ≠ path) ∧ Acceptable aliases values mesh) →
      addParameter ps (.varying path aliases values mesh) = .throw ∧
      addStep ps (.varying path aliases values mesh) = ps) := by
  have h23 := C23_creation_accepted_iff path aliases values mesh
  constructor
  · rintro ⟨hn, hacc⟩
    have hany : ps.any (fun p => p.path == path) = false := by
      rw [List.any_eq_false]; intro p hp; simpa using hn p hp
    have : addParameter ps (.varying path aliases values mesh) =
        .ok (ps ++ [⟨path, aliases, values, mesh⟩]) := by
      unfold addParameter
      simp [Decl.path, Decl.build, hany, h23.1 hacc]
    exact ⟨this, by simp [addStep, this]⟩
  · intro hneg
    have : addParameter ps (.varying path aliases values mesh) = .throw := by
      unfold addParameter
      by_cases hany : ps.any (fun p => p.path == path) = true
      · simp only [Decl.path, hany, if_true]
      · have hn : ∀ p ∈ ps, p.path ≠ path := by
          intro p hp hpp
          exact hany (List.any_eq_true.2 ⟨p, hp, by simp [hpp]⟩)
        have : ¬ Acceptable aliases values mesh := fun h => hneg ⟨hn, h⟩
        simp [Decl.path, Decl.build, hany, h23.2 this]
    exact ⟨this, by simp [addStep, this]⟩

/-- C27, the same for constant parameters: accepted exactly when the path is new. -/
theorem C27_constant_declaration_atomic [LinearOrder K] (ps : List (Param K)) (path al : String)
    (v : K) :
    ((∀ p ∈ ps, p.path ≠ path) →
      addParameter ps (.constant path al v) = .ok (ps ++ [⟨path, [al], [v], []⟩]) ∧
      addStep ps (.constant path al v) = ps ++ [⟨path, [al], [v], []⟩]) ∧
    ((∃ p ∈ ps, p.path = path) →
      addParameter ps (.constant path al v) = .throw ∧ addStep ps (.constant path al v) = ps) := by
  constructor
  · intro hn
    have hany : ps.any (fun p => p.path == path) = false := by
      rw [List.any_eq_false]; intro p hp; simpa using hn p hp
    have : addParameter ps (.constant path al v) = .ok (ps ++ [⟨path, [al], [v], []⟩]) := by
      unfold addParameter
      simp [Decl.path, Decl.build, hany, mkConstant]
    exact ⟨this, by simp [addStep, this]⟩
  · rintro ⟨p, hp, hpp⟩
    have hany : ps.any (fun p => p.path == path) = true :=
      List.any_eq_true.2 ⟨p, hp, by simp [hpp]⟩
    have : addParameter ps (.constant path al v) = .throw := by
      unfold addParameter
      simp only [Decl.path, hany, if_true]
    exact ⟨this, by simp [addStep, this]⟩

/-- a history with an accepted, a duplicate and an ill-formed declaration -/
example : (declareAll [Decl.constant "m" "mass" (700 : ℚ), .constant "m" "mass2" 650,
    .varying "c" ["c1"] [1] []]).map (·.path) = ["m"] := rfl

example : addStep [mkConstant "m" "mass" (700 : ℚ)] (.constant "m" "mass2" 650) =
    [mkConstant "m" "mass" (700 : ℚ)] :=
  ((C27_constant_declaration_atomic [mkConstant "m" "mass" (700 : ℚ)] "m" "mass2" 650).2
    ⟨_, List.mem_singleton.2 rfl, rfl⟩).2

example : addParameter [mkConstant "m" "mass" (700 : ℚ)]
    (.varying sample.path sample.aliases sample.values sample.mesh) =
    .ok ([mkConstant "m" "mass" (700 : ℚ)] ++ [sample]) :=
  ((C27_declaration_atomic [mkConstant "m" "mass" (700 : ℚ)] _ _ _ _).1
    ⟨by intro p hp; simp only [List.mem_singleton] at hp; subst hp; simp [mkConstant, sample],
      sample_acceptable⟩).1

end Verif.Parameter
