import Verif.Spec.CircuitOptions
import Verif.Lemmas.LapOptions
import Verif.Lemmas.Registry

/-! Lemmas about the options of the circuit preprocessor. -/

set_option autoImplicit false

namespace Verif.CircuitOptions

open Verif.LapOptions (Node find? Texts Readable Reads orThrow orThrow_eq_ok child? descend)
open Verif.CircuitFile (Circuit Options)

variable {K : Type*}

theorem need_eq_ok {d : Node} {p : List String} {e : Node} : need d p = .ok e ↔ find? d p = some e := orThrow_eq_ok

theorem textOf_some {d : Node} {p : List String} {t : String} :
    textOf d p = some t ↔ ∃ e, find? d p = some e ∧ e.text = t := by simp [textOf]

theorem textOf_ne_none {d : Node} {p : List String} : textOf d p ≠ none ↔ ∃ e, find? d p = some e := by
  rw [textOf, ne_eq, Option.map_eq_none_iff, ← ne_eq, Option.ne_none_iff_exists']

theorem find_parent {d : Node} {p q : String} {e : Node} (h : find? d [p, q] = some e) : ∃ e', find? d [p] = some e' := by
  unfold find? at *
  split at h
  · rename_i hr
    rw [if_pos hr]
    unfold descend at h ⊢
    rcases hc : child? d p with _ | c
    · rw [hc] at h
      exact absurd h (by simp)
    · exact ⟨c, rfl⟩
  · exact absurd h (by simp)

theorem number_reads {T : Texts K} {d : Node} {p : List String} {x v : K} (h : number T d p x = .ok v) :
    Reads (find? d p) T.num x v := by
  unfold number at h
  unfold Reads
  rcases hf : find? d p with _ | e
  · rw [hf] at h
    exact (Res.ok.inj h).symm
  · rw [hf] at h
    exact h

theorem number_exists {T : Texts K} {d : Node} {p : List String} (x : K) :
    (∃ v, number T d p x = .ok v) ↔ Readable (find? d p) T.num := by
  unfold number Readable
  rcases find? d p with _ | e
  · simp
  · simp

theorem reads_none {T : Texts K} {d : Node} {p q : String} (h : find? d [p] = none) (x : K) :
    Reads (find? d [p, q]) T.num x x := by
  rcases hf : find? d [p, q] with _ | e
  · rfl
  · obtain ⟨e', he⟩ := find_parent hf
    rw [h] at he
    exact absurd he (by simp)

/-- What is known of the weights. -/
theorem readWeights_ok [Field K] {T : Texts K} {d : Node} {o o' : Options K} (h : readWeights T d o = .ok o') :
    Reads (find? d ["optimization", "cost_curvature"]) T.num o.epsK o'.epsK ∧
    Reads (find? d ["optimization", "cost_track_limits_smoothness"]) T.num o.epsN o'.epsN ∧
    Reads (find? d ["optimization", "cost_track_limits_errors"]) T.num o.epsD o'.epsD ∧
    Reads (find? d ["optimization", "cost_centerline"]) T.num o.epsC o'.epsC ∧
    Reads (find? d ["optimization", "maximum_yaw_dot"]) T.num o.maximumYawDot o'.maximumYawDot ∧
    Reads (find? d ["optimization", "maximum_dyaw_dot"]) T.num o.maximumDyawDot o'.maximumDyawDot ∧
    o' = { o with epsK := o'.epsK, epsN := o'.epsN, epsD := o'.epsD, epsC := o'.epsC,
                  maximumYawDot := o'.maximumYawDot, maximumDyawDot := o'.maximumDyawDot } := by
  unfold readWeights at h
  rcases hf : find? d ["optimization"] with _ | e
  · simp only [hf] at h
    obtain rfl := Res.ok.inj h
    exact ⟨reads_none hf _, reads_none hf _, reads_none hf _, reads_none hf _, reads_none hf _, reads_none hf _, rfl⟩
  · simp only [hf] at h
    obtain ⟨k, h1, h⟩ := Res.bind_eq_ok.1 h
    obtain ⟨n, h2, h⟩ := Res.bind_eq_ok.1 h
    obtain ⟨e, h3, h⟩ := Res.bind_eq_ok.1 h
    obtain ⟨c, h4, h⟩ := Res.bind_eq_ok.1 h
    obtain ⟨y, h5, h⟩ := Res.bind_eq_ok.1 h
    obtain ⟨dy, h6, h⟩ := Res.bind_eq_ok.1 h
    obtain rfl := Res.ok.inj h
    exact ⟨number_reads h1, number_reads h2, number_reads h3, number_reads h4, number_reads h5, number_reads h6, rfl⟩

theorem readWeights_exists [Field K] {T : Texts K} {d : Node} (o : Options K) :
    (∃ o', readWeights T d o = .ok o') ↔ ∀ p ∈ ["cost_curvature", "cost_track_limits_smoothness",
      "cost_track_limits_errors", "cost_centerline", "maximum_yaw_dot", "maximum_dyaw_dot"],
      Readable (find? d ["optimization", p]) T.num := by
  constructor
  · rintro ⟨o', h⟩ p hp e he
    have r : ∀ {q : String} {x v : K}, Reads (find? d ["optimization", q]) T.num x v →
        find? d ["optimization", q] = some e → ∃ v, T.num e.text = .ok v := by
      intro q x v hr hq
      rw [hq] at hr
      exact ⟨v, hr⟩
    obtain ⟨h1, h2, h3, h4, h5, h6, -⟩ := readWeights_ok h
    simp only [List.mem_cons, List.not_mem_nil, or_false] at hp
    rcases hp with rfl | rfl | rfl | rfl | rfl | rfl
    · exact r h1 he
    · exact r h2 he
    · exact r h3 he
    · exact r h4 he
    · exact r h5 he
    · exact r h6 he
  · intro h
    unfold readWeights
    rcases hf : find? d ["optimization"] with _ | e
    · exact ⟨o, by simp only [hf]⟩
    · obtain ⟨k, h1⟩ := (number_exists o.epsK).2 (h "cost_curvature" (by simp))
      obtain ⟨n, h2⟩ := (number_exists o.epsN).2 (h "cost_track_limits_smoothness" (by simp))
      obtain ⟨e, h3⟩ := (number_exists o.epsD).2 (h "cost_track_limits_errors" (by simp))
      obtain ⟨c, h4⟩ := (number_exists o.epsC).2 (h "cost_centerline" (by simp))
      obtain ⟨y, h5⟩ := (number_exists o.maximumYawDot).2 (h "maximum_yaw_dot" (by simp))
      obtain ⟨dy, h6⟩ := (number_exists o.maximumDyawDot).2 (h "maximum_dyaw_dot" (by simp))
      simp only [hf, h1, h2, h3, h4, h5, h6, Res.bind_ok]
      exact ⟨_, rfl⟩

theorem readOptions_ok [Field K] {T : Texts K} {trunc : K → Int} {d : Node} {o : Options K}
    (h : readOptions T trunc d = .ok o) :
    ∃ o', readWeights T d Options.default = .ok o' ∧ o = { o' with printLevel := o.printLevel } ∧
      Reads (find? d ["print_level"]) (fun t => (T.num t).map trunc) 0 o.printLevel := by
  unfold readOptions at h
  obtain ⟨o', h1, h⟩ := Res.bind_eq_ok.1 h
  refine ⟨o', h1, ?_⟩
  rcases hf : find? d ["print_level"] with _ | e
  · rw [hf] at h
    obtain rfl := Res.ok.inj h
    refine ⟨rfl, ?_⟩
    have := (readWeights_ok h1).2.2.2.2.2.2
    exact (congrArg Options.printLevel this).trans rfl
  · rw [hf] at h
    obtain ⟨p, h2, h⟩ := Res.bind_eq_ok.1 h
    obtain rfl := Res.ok.inj h
    refine ⟨rfl, ?_⟩
    show (T.num e.text).map trunc = _
    rw [h2]
    rfl

theorem readOptions_exists [Field K] {T : Texts K} {trunc : K → Int} {d : Node} :
    (∃ o, readOptions T trunc d = .ok o) ↔ (∃ o, readWeights T d (Options.default (K := K)) = .ok o) ∧
      Readable (find? d ["print_level"]) T.num := by
  constructor
  · rintro ⟨o, h⟩
    obtain ⟨o', h1, -, h2⟩ := readOptions_ok h
    refine ⟨⟨o', h1⟩, fun e he => ?_⟩
    rw [he] at h2
    have h2 : (T.num e.text).map trunc = .ok o.printLevel := h2
    rcases hn : T.num e.text with v | _ | _
    · exact ⟨v, rfl⟩
    · rw [hn] at h2
      exact absurd h2 (by simp [Res.map])
    · rw [hn] at h2
      exact absurd h2 (by simp [Res.map])
  · rintro ⟨⟨o, h1⟩, h2⟩
    unfold readOptions
    rw [h1, Res.bind_ok]
    rcases hf : find? d ["print_level"] with _ | e
    · exact ⟨o, rfl⟩
    · obtain ⟨p, hp⟩ := h2 e hf
      simp only [hp, Res.bind_ok]
      exact ⟨_, rfl⟩

/-- The mesh of the mode `mode`. -/
def MeshIs (T : Texts K) (d : Node) (mode : String) (m : Mesh K) : Prop :=
  (mode = "equally-spaced" ∧ ∃ t n, textOf d ["number_of_elements"] = some t ∧ T.int t = .ok n ∧
    m = .elements (toSize n)) ∨
  (mode ≠ "equally-spaced" ∧ ∃ t l t' l', textOf d ["mesh_refinement", "s"] = some t ∧ T.nums t = .ok l ∧
    textOf d ["mesh_refinement", "ds"] = some t' ∧ T.nums t' = .ok l' ∧ m = .refined l l')

theorem readMesh_ok {T : Texts K} {d : Node} {mode : String} {m : Mesh K} :
    readMesh T d mode = .ok m ↔ MeshIs T d mode m := by
  unfold readMesh MeshIs
  by_cases hm : mode = "equally-spaced"
  · rw [if_pos hm]
    constructor
    · intro h
      obtain ⟨e, h1, h⟩ := Res.bind_eq_ok.1 h
      obtain ⟨n, h2, h⟩ := Res.bind_eq_ok.1 h
      exact .inl ⟨hm, e.text, n, textOf_some.2 ⟨e, need_eq_ok.1 h1, rfl⟩, h2, (Res.ok.inj h).symm⟩
    · rintro (⟨-, t, n, h1, h2, rfl⟩ | ⟨h, -⟩)
      · obtain ⟨e, he, rfl⟩ := textOf_some.1 h1
        rw [need_eq_ok.2 he, Res.bind_ok, h2, Res.bind_ok]
      · exact absurd hm h
  · rw [if_neg hm]
    constructor
    · intro h
      obtain ⟨_, -, h⟩ := Res.bind_eq_ok.1 h
      obtain ⟨s, h1, h⟩ := Res.bind_eq_ok.1 h
      obtain ⟨ds, h2, h⟩ := Res.bind_eq_ok.1 h
      obtain ⟨l, h3, h⟩ := Res.bind_eq_ok.1 h
      obtain ⟨l', h4, h⟩ := Res.bind_eq_ok.1 h
      exact .inr ⟨hm, s.text, l, ds.text, l', textOf_some.2 ⟨s, need_eq_ok.1 h1, rfl⟩, h3,
        textOf_some.2 ⟨ds, need_eq_ok.1 h2, rfl⟩, h4, (Res.ok.inj h).symm⟩
    · rintro (⟨h, -⟩ | ⟨-, t, l, t', l', h1, h2, h3, h4, rfl⟩)
      · exact absurd h hm
      · obtain ⟨e, he, rfl⟩ := textOf_some.1 h1
        obtain ⟨e', he', rfl⟩ := textOf_some.1 h3
        obtain ⟨p, hp⟩ := find_parent he
        rw [need_eq_ok.2 hp, Res.bind_ok, need_eq_ok.2 he, Res.bind_ok, need_eq_ok.2 he', Res.bind_ok, h2, Res.bind_ok, h4,
          Res.bind_ok]

/-- What is known of an accepted configuration. -/
structure Known [Field K] (T : Texts K) (trunc : K → Int) (d : Node) (c : Config K) : Prop where
  left : textOf d ["kml_files", "left"] = some c.left
  right : textOf d ["kml_files", "right"] = some c.right
  closed : ∃ t, textOf d ["is_closed"] = some t ∧ T.bool t = .ok c.isClosed
  mode : ∃ t, textOf d ["mode"] = some t ∧ (t = "equally-spaced" ∨ t = "refined" ∧ c.isClosed = true) ∧
    MeshIs T d t c.mesh
  options : readOptions T trunc d = .ok c.options
  xml : c.xmlFile = textOf d ["xml_file_name"]
  table : c.table = textOf d ["insert_table_name"]
  noOutputs : find? d ["output_variables"] = none → c.outputs = none
  outputs : find? d ["output_variables"] ≠ none → ∃ t, textOf d ["output_variables", "prefix"] = some t ∧
    c.outputs = some t

theorem configure_known [Field K] {T : Texts K} {trunc : K → Int} {d : Node} {c : Config K}
    (h : configure T trunc (some d) = .ok c) : Known T trunc d c := by
  unfold configure at h
  obtain ⟨_, -, h⟩ := Res.bind_eq_ok.1 h
  obtain ⟨l, h1, h⟩ := Res.bind_eq_ok.1 h
  obtain ⟨r, h2, h⟩ := Res.bind_eq_ok.1 h
  obtain ⟨m, h3, h⟩ := Res.bind_eq_ok.1 h
  by_cases hm : m.text ≠ "equally-spaced" ∧ m.text ≠ "refined"
  · rw [if_pos hm] at h
    exact absurd h (by simp)
  rw [if_neg hm] at h
  obtain ⟨ce, h4, h⟩ := Res.bind_eq_ok.1 h
  obtain ⟨b, h5, h⟩ := Res.bind_eq_ok.1 h
  by_cases hb : b = false ∧ m.text = "refined"
  · rw [if_pos hb] at h
    exact absurd h (by simp)
  rw [if_neg hb] at h
  obtain ⟨mesh, h6, h⟩ := Res.bind_eq_ok.1 h
  obtain ⟨o, h7, h⟩ := Res.bind_eq_ok.1 h
  obtain ⟨p, h8, h⟩ := Res.bind_eq_ok.1 h
  obtain rfl := Res.ok.inj h
  refine ⟨textOf_some.2 ⟨l, need_eq_ok.1 h1, rfl⟩, textOf_some.2 ⟨r, need_eq_ok.1 h2, rfl⟩,
    ⟨ce.text, textOf_some.2 ⟨ce, need_eq_ok.1 h4, rfl⟩, h5⟩,
    ⟨m.text, textOf_some.2 ⟨m, need_eq_ok.1 h3, rfl⟩, ?_, readMesh_ok.1 h6⟩, h7, rfl, rfl, fun h0 => ?_, fun h0 => ?_⟩
  · by_cases hm1 : m.text = "equally-spaced"
    · exact .inl hm1
    · have hm2 : m.text = "refined" := by
        by_contra hm2
        exact hm ⟨hm1, hm2⟩
      refine .inr ⟨hm2, ?_⟩
      rcases hbb : b with _ | _
      · exact absurd ⟨hbb, hm2⟩ hb
      · rfl
  · unfold readPrefix at h8
    rw [h0] at h8
    exact (Res.ok.inj h8).symm
  · unfold readPrefix at h8
    obtain ⟨e, he⟩ := Option.ne_none_iff_exists'.1 h0
    rw [he] at h8
    obtain ⟨e', h9, h8⟩ := Res.bind_eq_ok.1 h8
    exact ⟨e'.text, textOf_some.2 ⟨e', need_eq_ok.1 h9, rfl⟩, (Res.ok.inj h8).symm⟩

theorem configure_accepts [Field K] {T : Texts K} {trunc : K → Int} {d : Node} :
    (∃ c, configure T trunc (some d) = .ok c) ↔ Acceptable T d := by
  constructor
  · rintro ⟨c, h⟩
    have k := configure_known h
    obtain ⟨t, ht, hb⟩ := k.closed
    obtain ⟨m, hm, hmode, hmesh⟩ := k.mode
    have ho := readOptions_exists.1 ⟨_, k.options⟩
    refine ⟨by simp [k.left], by simp [k.right], ⟨t, c.isClosed, ht, hb, ?_⟩, (readWeights_exists _).1 ho.1, ho.2,
      fun h0 => ?_⟩
    · rcases hmesh with ⟨h1, t', n, h2, h3, -⟩ | ⟨h1, t', l, t'', l', h2, h3, h4, h5, -⟩
      · exact .inl ⟨h1 ▸ hm, t', n, h2, h3⟩
      · rcases hmode with h6 | ⟨h6, h7⟩
        · exact absurd h6 h1
        · exact .inr ⟨h7, h6 ▸ hm, ⟨t', l, h2, h3⟩, t'', l', h4, h5⟩
    · obtain ⟨t, h1, -⟩ := k.outputs h0
      obtain ⟨e, he, -⟩ := textOf_some.1 h1
      simp [he]
  · rintro ⟨h1, h2, ⟨t, b, h3, h4, h5⟩, h6, h7, h8⟩
    obtain ⟨l, hl⟩ := textOf_ne_none.1 h1
    obtain ⟨r, hr⟩ := textOf_ne_none.1 h2
    obtain ⟨p, hp⟩ := find_parent hl
    obtain ⟨ce, hce, rfl⟩ := textOf_some.1 h3
    obtain ⟨o, ho⟩ := readOptions_exists (trunc := trunc).2 ⟨(readWeights_exists _).2 h6, h7⟩
    obtain ⟨x, hx⟩ : ∃ x, readPrefix d = .ok x := by
      unfold readPrefix
      rcases hf : find? d ["output_variables"] with _ | e
      · exact ⟨none, rfl⟩
      · obtain ⟨e', he'⟩ := Option.ne_none_iff_exists'.1 (h8 (by simp [hf]))
        simp only [need_eq_ok.2 he', Res.bind_ok]
        exact ⟨_, rfl⟩
    simp only [configure]
    rw [need_eq_ok.2 hp, Res.bind_ok, need_eq_ok.2 hl, Res.bind_ok, need_eq_ok.2 hr, Res.bind_ok]
    rcases h5 with ⟨hm, t, n, h9, h10⟩ | ⟨rfl, hm, ⟨t, l, h9, h10⟩, t', l', h11, h12⟩
    · obtain ⟨m, hme, hmt⟩ := textOf_some.1 hm
      have hmesh : readMesh T d m.text = .ok (.elements (toSize n)) :=
        readMesh_ok.2 (.inl ⟨hmt, t, n, h9, h10, rfl⟩)
      rw [need_eq_ok.2 hme, Res.bind_ok, if_neg (by simp [hmt]), need_eq_ok.2 hce, Res.bind_ok, h4, Res.bind_ok,
        if_neg (by simp [hmt]), hmesh, Res.bind_ok, ho, Res.bind_ok, hx, Res.bind_ok]
      exact ⟨_, rfl⟩
    · obtain ⟨m, hme, hmt⟩ := textOf_some.1 hm
      have hmesh : readMesh T d m.text = .ok (.refined l l') :=
        readMesh_ok.2 (.inr ⟨by simp [hmt], t, l, t', l', h9, h10, h11, h12, rfl⟩)
      rw [need_eq_ok.2 hme, Res.bind_ok, if_neg (by simp [hmt]), need_eq_ok.2 hce, Res.bind_ok, h4, Res.bind_ok,
        if_neg (by simp), hmesh, Res.bind_ok, ho, Res.bind_ok, hx, Res.bind_ok]
      exact ⟨_, rfl⟩

/-! ### Saving the outputs -/

section
open Verif.Registry
variable {Kart F1 Track K : Type}

theorem saveOutputs_ok {pre : Name} {data : Name → Res (List K)} : ∀ (os : List Name) (r r' : Reg Kart F1 Track K)
    {x : Ret K}, saveOutputs pre data os r = (r', .ok x) →
      (∀ o ∈ os, ∃ v, data o = .ok v ∧ r'.vector (pre ++ o) = some v ∧ r.vector (pre ++ o) = none) ∧
      (∀ n, (∀ o ∈ os, n ≠ pre ++ o) → r'.vector n = r.vector n) ∧
      r'.track = r.track ∧ r'.scalar = r.scalar ∧ r'.kart = r.kart ∧ r'.f1 = r.f1 := by
  intro os
  induction os with
  | nil =>
    intro r r' x h
    obtain ⟨rfl, -⟩ := Prod.mk.inj h
    exact ⟨by simp, fun _ _ => rfl, rfl, rfl, rfl, rfl⟩
  | cons o os ih =>
    intro r r' x h
    simp only [saveOutputs] at h
    rcases hv : r.vector (pre ++ o) with _ | w
    · rw [hv] at h
      simp only [Option.isSome_none, Bool.false_eq_true, if_false] at h
      rcases hd : data o with v | _ | _
      · rw [hd] at h
        obtain ⟨h1, h2, h3⟩ := ih _ _ h
        have hput : put r.vector (pre ++ o) v (pre ++ o) = some v := by simp [put, hv]
        have hne : ∀ n, n ≠ pre ++ o → put r.vector (pre ++ o) v n = r.vector n := fun n hn => by simp [put, hn]
        have ho : o ∉ os := by
          intro hmem
          obtain ⟨v', -, -, h4⟩ := h1 o hmem
          have h4 : put r.vector (pre ++ o) v (pre ++ o) = none := h4
          rw [hput] at h4
          exact absurd h4 (by simp)
        refine ⟨fun o' ho' => ?_, fun n hn => ?_, h3⟩
        · rcases List.mem_cons.1 ho' with rfl | hmem
          · refine ⟨v, hd, ?_, hv⟩
            rw [h2 _ (fun o'' ho'' he => ho (by rw [List.append_cancel_left he]; exact ho''))]
            exact hput
          · obtain ⟨v', h4, h5, h6⟩ := h1 o' hmem
            refine ⟨v', h4, h5, ?_⟩
            have : pre ++ o' ≠ pre ++ o := fun he => ho (List.append_cancel_left he ▸ hmem)
            exact (hne _ this).symm.trans h6
        · rw [h2 n fun o' ho' => hn o' (List.mem_cons_of_mem _ ho')]
          exact hne n (hn o List.mem_cons_self)
      · rw [hd] at h
        exact absurd (Prod.mk.inj h).2 (by simp)
      · rw [hd] at h
        exact absurd (Prod.mk.inj h).2 (by simp)
    · rw [hv] at h
      simp at h

/-- A list as long as the vector is copied as it is. -/
theorem copied_self {K : Type} [Zero K] {n : Nat} {l : List K} (h : l.length = n) : copied n l = .ok l := by
  unfold copied
  rw [if_pos (by omega), show n - l.length = 0 by omega]
  simp

theorem find_of_nodup {α : Type} : ∀ (l : List (String × α)), (l.map fun o => o.1.toList).Nodup → ∀ o ∈ l,
    l.find? (fun o' => o'.1.toList = o.1.toList) = some o := by
  intro l
  induction l with
  | nil => simp
  | cons a l ih =>
    intro hn o ho
    rw [List.map_cons, List.nodup_cons] at hn
    rw [List.find?_cons]
    rcases List.mem_cons.1 ho with rfl | hmem
    · simp
    · have hne : ¬ a.1.toList = o.1.toList := fun he => hn.1 (by
        rw [he]
        exact List.mem_map.2 ⟨o, hmem, rfl⟩)
      rw [decide_eq_false hne]
      exact ih hn.2 o hmem

theorem circuitOutputs_nodup : circuitOutputs.Nodup := by decide +kernel

/-- The data of each output. -/
theorem outputData_eq {K : Type} [Zero K] (c : Circuit K) {o : String × Res (List K)} (ho : o ∈ outputTable c) :
    outputData c o.1.toList = o.2 := by
  unfold outputData
  rw [find_of_nodup (outputTable c) circuitOutputs_nodup o ho]

theorem outputData_vectors {K : Type} [Zero K] (c : Circuit K) (h1 : c.rCenterline.length = c.s.length)
    (h2 : c.rLeft.length = c.s.length) (h3 : c.rRight.length = c.s.length) (h4 : c.rLeftMeasured.length = c.s.length)
    (h5 : c.rRightMeasured.length = c.s.length) :
    ∀ o ∈ circuitVectors c, outputData c o.1.toList = .ok o.2 := by
  intro o ho
  have hl : ∀ {α : Type} (l : List α) (f : α → K), l.length = c.s.length → copied c.s.length (l.map f) = .ok (l.map f) :=
    fun l f h => copied_self (by rw [List.length_map, h])
  refine outputData_eq c (o := (o.1, .ok o.2)) ?_
  unfold outputTable
  simp only [hl c.rCenterline _ h1, hl c.rLeft _ h2, hl c.rRight _ h3, hl c.rLeftMeasured _ h4, hl c.rRightMeasured _ h5]
  have := List.mem_map_of_mem (f := fun o : String × List K => (o.1, Res.ok o.2)) ho
  exact this

/-- What a circuit computation that succeeds leaves. -/
theorem runCircuit_ok {r r' : Reg Kart F1 Track K} {j : CircuitJob Track K} {x : Ret K} {t : Track}
    (hb : j.built = .ok t) (h : runCircuit r j = (r', .ok x)) :
    (∀ n, j.saveTo = some n → r'.track n = some t) ∧
    ∀ p, j.outputs = some p → ∀ o ∈ circuitOutputs, ∃ v, j.data o = .ok v ∧ r'.vector (p ++ o) = some v := by
  unfold runCircuit at h
  simp only [hb] at h
  have key : ∀ r1 : Reg Kart F1 Track K, (match j.xml with
      | .throw => (r1, .throw)
      | .ub => (r1, .ub)
      | .ok _ => match j.outputs with
        | none => (r1, .ok .unit)
        | some pre => saveOutputs pre j.data circuitOutputs r1) = (r', Res.ok x) →
      r'.track = r1.track ∧ ∀ p, j.outputs = some p → ∀ o ∈ circuitOutputs, ∃ v, j.data o = .ok v ∧
        r'.vector (p ++ o) = some v := by
    intro r1 h
    rcases hx : j.xml with u | _ | _
    · rw [hx] at h
      rcases ho : j.outputs with _ | pre
      · rw [ho] at h
        obtain ⟨rfl, -⟩ := Prod.mk.inj h
        exact ⟨rfl, fun p hp => absurd hp (by simp)⟩
      · rw [ho] at h
        obtain ⟨h1, -, h2, -⟩ := saveOutputs_ok _ _ _ h
        refine ⟨h2, fun p hp o hmem => ?_⟩
        obtain rfl := Option.some.inj hp
        obtain ⟨v, h3, h4, -⟩ := h1 o hmem
        exact ⟨v, h3, h4⟩
    · rw [hx] at h
      exact absurd (Prod.mk.inj h).2 (by simp)
    · rw [hx] at h
      exact absurd (Prod.mk.inj h).2 (by simp)
  rcases hs : j.saveTo with _ | n
  · rw [hs] at h
    exact ⟨fun n hn => absurd hn (by simp), (key _ h).2⟩
  · rw [hs] at h
    by_cases hn : (r.track n).isSome
    · simp [hn] at h
    · simp only [hn, Bool.false_eq_true, if_false] at h
      obtain ⟨h1, h2⟩ := key _ h
      refine ⟨fun m hm => ?_, h2⟩
      obtain rfl := Option.some.inj hm
      have hnone : r.track n = none := by simpa using hn
      rw [h1]
      simp [put, hnone]

/-- What a circuit computation without file and outputs that throws leaves. -/
theorem runCircuit_throw {r r' : Reg Kart F1 Track K} {j : CircuitJob Track K} (hx : j.xml = .ok ())
    (ho : j.outputs = none) (h : runCircuit r j = (r', .throw)) : r' = r := by
  unfold runCircuit at h
  rcases hb : j.built with t | _ | _
  · simp only [hb, hx, ho] at h
    rcases hs : j.saveTo with _ | n
    · rw [hs] at h
      exact absurd (Prod.mk.inj h).2 (by simp)
    · rw [hs] at h
      by_cases hn : (r.track n).isSome
      · simp only [hn, if_true] at h
        exact (Prod.mk.inj h).1.symm
      · simp [hn] at h
  · rw [hb] at h
    exact (Prod.mk.inj h).1.symm
  · rw [hb] at h
    exact absurd (Prod.mk.inj h).2 (by simp)

/-- Saving succeeds until the first output whose data cannot be copied. -/
theorem saveOutputs_ub {pre : Name} {data : Name → Res (List K)} {bad : Name} (hb : data bad = .ub) :
    ∀ (before after : List Name) (r : Reg Kart F1 Track K), (∀ o ∈ before, ∃ v, data o = .ok v) →
      (before ++ bad :: after).Nodup → (∀ o ∈ before ++ [bad], r.vector (pre ++ o) = none) →
      (saveOutputs pre data (before ++ bad :: after) r).2 = .ub := by
  intro before
  induction before with
  | nil =>
    intro after r _ _ hr
    have := hr bad (by simp)
    simp [saveOutputs, this, hb]
  | cons o os ih =>
    intro after r hd hn hr
    obtain ⟨v, hv⟩ := hd o (by simp)
    have h0 := hr o (by simp)
    rw [List.cons_append, List.nodup_cons] at hn
    simp only [List.cons_append, saveOutputs, h0, hv, Option.isSome_none, Bool.false_eq_true, if_false]
    refine ih after _ (fun o' ho' => hd o' (by simp [ho'])) hn.2 fun o' ho' => ?_
    have hne : pre ++ o' ≠ pre ++ o := by
      intro he
      have he := List.append_cancel_left he
      apply hn.1
      rw [← he]
      rcases List.mem_append.1 ho' with h | h
      · exact List.mem_append_left _ h
      · rw [List.mem_singleton.1 h]
        simp
    show put r.vector (pre ++ o) v (pre ++ o') = none
    rw [show put r.vector (pre ++ o) v (pre ++ o') = r.vector (pre ++ o') by simp [put, hne]]
    rw [List.cons_append] at hr
    exact hr o' (List.mem_cons_of_mem _ ho')

/-- Saving succeeds when all data can be copied and the names are free. -/
theorem saveOutputs_succeeds {pre : Name} {data : Name → Res (List K)} :
    ∀ (os : List Name) (r : Reg Kart F1 Track K), (∀ o ∈ os, ∃ v, data o = .ok v) → os.Nodup →
      (∀ o ∈ os, r.vector (pre ++ o) = none) → ∃ r', saveOutputs pre data os r = (r', .ok .unit) := by
  intro os
  induction os with
  | nil => exact fun r _ _ _ => ⟨r, rfl⟩
  | cons o os ih =>
    intro r hd hn hr
    obtain ⟨v, hv⟩ := hd o (by simp)
    have h0 := hr o (by simp)
    rw [List.nodup_cons] at hn
    simp only [saveOutputs, h0, hv, Option.isSome_none, Bool.false_eq_true, if_false]
    refine ih _ (fun o' ho' => hd o' (by simp [ho'])) hn.2 fun o' ho' => ?_
    have hne : pre ++ o' ≠ pre ++ o := fun he => hn.1 (by rw [← List.append_cancel_left he]; exact ho')
    show put r.vector (pre ++ o) v (pre ++ o') = none
    rw [show put r.vector (pre ++ o) v (pre ++ o') = r.vector (pre ++ o') by simp [put, hne]]
    exact hr o' (by simp [ho'])

end

end Verif.CircuitOptions
