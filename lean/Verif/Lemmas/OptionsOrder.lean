import Verif.Spec.OptionsOrder
import Verif.Lemmas.LapOptions
import Verif.Model.Propagation

/-! Lemmas on the order and the names of the options. -/

set_option autoImplicit false

namespace Verif.LapOptions

open Spec Transcription

variable {K : Type*}

/-- The first element of a name does not depend on the order when names are not repeated. -/
theorem find_perm {l l' : List Node} (hp : l.Perm l') (hn : (l.map Node.name).Nodup) (n : String) :
    (l.find? fun c => c.name = n) = l'.find? fun c => c.name = n := by
  induction hp with
  | nil => rfl
  | cons x _ ih => rw [List.find?_cons, List.find?_cons, ih (List.nodup_cons.1 hn).2]
  | swap x y l =>
    have hxy : y.name ≠ x.name := by
      intro h
      have := (List.nodup_cons.1 hn).1
      rw [h] at this
      exact this (by simp)
    simp only [List.find?_cons]
    by_cases hx : x.name = n
    · have hy : y.name ≠ n := fun h => hxy (h.trans hx.symm)
      simp [hx, hy]
    · simp [hx]
  | trans h1 _ ih1 ih2 => rw [ih1 hn, ih2 ((h1.map _).nodup_iff.1 hn)]

theorem find?_agree {d d' : Node} (hd : d.name = d'.name) {n : String} (h : child? d n = child? d' n) (p : List String) :
    find? d (n :: p) = find? d' (n :: p) := by
  simp only [find?, hd, descend, h]

/-- A lap reads the options of its list only. -/
theorem configure_agree [Field K] (T : Texts K) (car : CarType K) (tables : String → Option (List K)) (junkQ junkU : Row K)
    {d d' : Node} (hd : d.name = d'.name) (h : ∀ n ∈ lapOptionNames, child? d n = child? d' n) :
    configure T car tables junkQ junkU (.doc d) = configure T car tables junkQ junkU (.doc d') := by
  have a : ∀ n ∈ lapOptionNames, ∀ p, find? d (n :: p) = find? d' (n :: p) := fun n hn p => find?_agree hd (h n hn) p
  simp only [lapOptionNames, List.forall_mem_cons] at a
  obtain ⟨a1, a2, a3, a4, a5, a6, a7, a8, a9, a10, a11, a12, a13, a14, a15, -⟩ := a
  simp only [configure, option, fileOption, outputOption, speedOption, initialOption, fromTable, controlsOption, integralsOption,
    boundsOption, a1, a2, a3, a4, a5, a6, a7, a8, a9, a10, a11, a12, a13, a14, a15]

/-- The circuit preprocessor reads the options of its list only. -/
theorem circuit_agree [Field K] (T : Texts K) (trunc : K → Int) {d d' : Node} (hd : d.name = d'.name)
    (h : ∀ n ∈ circuitOptionNames, child? d n = child? d' n) :
    CircuitOptions.configure T trunc (some d) = CircuitOptions.configure T trunc (some d') := by
  have a : ∀ n ∈ circuitOptionNames, ∀ p, find? d (n :: p) = find? d' (n :: p) := fun n hn p => find?_agree hd (h n hn) p
  simp only [circuitOptionNames, List.forall_mem_cons] at a
  obtain ⟨a1, a2, a3, a4, a5, a6, a7, a8, a9, a10, -⟩ := a
  simp only [CircuitOptions.configure, CircuitOptions.need, CircuitOptions.readMesh, CircuitOptions.readOptions,
    CircuitOptions.readWeights, CircuitOptions.readPrefix, CircuitOptions.number, a1, a2, a3, a4, a5, a6, a7, a8, a9, a10]

/-- A propagation reads the options of its list only. -/
theorem step_agree (x : Texts ℝ) (o : Propagation.StepOptions) {parse : String → Res Node} {t t' : String} {d d' : Node}
    (h1 : t ≠ "") (h2 : t' ≠ "") (hp : parse t = .ok d) (hp' : parse t' = .ok d') (hd : d.name = d'.name) (h : ∀ n ∈ stepOptionNames, child? d n = child? d' n) :
    Propagation.readOptions x parse o t = Propagation.readOptions x parse o t' := by
  have a : ∀ n ∈ stepOptionNames, ∀ p, find? d (n :: p) = find? d' (n :: p) := fun n hn p => find?_agree hd (h n hn) p
  simp only [stepOptionNames, List.forall_mem_cons] at a
  obtain ⟨a1, a2, a3, a4, -⟩ := a
  simp only [Propagation.readOptions, if_neg h1, if_neg h2, hp, hp', Res.bind_ok, Propagation.setIf, a1, a2, a3, a4]

/-! ### Entries -/

/-- A row with one of its values replaced, if there is a value. -/
def put {α : Type*} (i : Nat) (o : Option α) (r : Row α) : Row α :=
  match o with
  | none => r
  | some x => Function.update r i x

theorem put_comm {α : Type*} {i j : Nat} (h : i ≠ j) (o o' : Option α) (r : Row α) : put i o (put j o' r) = put j o' (put i o r) := by
  cases o with
  | none => cases o' <;> rfl
  | some x =>
    cases o' with
    | none => rfl
    | some y => exact Function.update_comm h.symm y x r

/-- What an entry of the control variables does. -/
def controlEffect (i : Nat) (t : String) (h : Option (List K)) (x : Option K) (c : Config K) : Config K :=
  { c with types := put i (some t) c.types, hypermeshes := put i h c.hypermeshes, dissipations := put i x c.dissipations }

/-- What an entry of the bounds does. -/
def boundEffect (isInput : Bool) (i : Nat) (l u : Option K) (c : Config K) : Config K :=
  bif isInput then { c with inputsLb := put i l c.inputsLb, inputsUb := put i u c.inputsUb }
  else { c with controlsLb := put i l c.controlsLb, controlsUb := put i u c.controlsUb }

theorem controlOption_effect (T : Texts K) (car : CarType K) (e : Node) {c c' : Config K} (h : controlOption T car c e = .ok c') :
    ∃ i t h x, position car.controls e.name = some i ∧ ∀ c, controlOption T car c e = .ok (controlEffect i t h x c) := by
  unfold controlOption at h ⊢
  rcases hi : position car.controls e.name with _ | i
  · rw [hi] at h; cases h
  rw [hi] at h
  obtain ⟨t, ht, h⟩ := Res.bind_eq_ok.1 h
  simp only [ht, Res.bind_ok]
  split_ifs at h with h1 h2 h3 h4
  · exact ⟨i, t, none, none, rfl, fun c => by rw [if_pos h1]; rfl⟩
  · exact ⟨i, t, none, none, rfl, fun c => by rw [if_neg h1, if_pos h2]; rfl⟩
  · obtain ⟨m, hm, h⟩ := Res.bind_eq_ok.1 h
    obtain ⟨x, hx, h⟩ := Res.bind_eq_ok.1 h
    exact ⟨i, t, some x, none, rfl, fun c => by rw [if_neg h1, if_neg h2, if_pos h3, hm, Res.bind_ok, hx, Res.bind_ok]; rfl⟩
  · rcases hd : child? e "dissipation" with _ | m
    · exact ⟨i, t, none, none, rfl, fun c => by rw [if_neg h1, if_neg h2, if_neg h3, if_pos h4]; rfl⟩
    · rw [hd] at h
      obtain ⟨x, hx, h⟩ := Res.bind_eq_ok.1 h
      exact ⟨i, t, none, some x, rfl, fun c => by
        rw [if_neg h1, if_neg h2, if_neg h3, if_pos h4]; simp only [hx, Res.bind_ok]; rfl⟩

theorem boundOption_effect (T : Texts K) (e : Node) (n : String) (i : Nat) {b b' : Row K} (h : boundOption T e n i b = .ok b') :
    ∃ o, ∀ b, boundOption T e n i b = .ok (put i o b) := by
  unfold boundOption at h ⊢
  rcases hc : child? e n with _ | x
  · exact ⟨none, fun _ => rfl⟩
  · rw [hc] at h
    obtain ⟨x, hx, h⟩ := Res.bind_eq_ok.1 h
    exact ⟨some x, fun b => by simp only [hx, Res.bind_ok]; rfl⟩

theorem variableOption_effect (T : Texts K) (car : CarType K) (e : Node) {c c' : Config K} (h : variableOption T car c e = .ok c') :
    ∃ b i l u, position (bif b then car.inputs else car.controls) e.name = some i ∧
      ∀ c, variableOption T car c e = .ok (boundEffect b i l u c) := by
  unfold variableOption at h ⊢
  split_ifs at h with hw
  simp only [if_pos hw]
  rcases hi : position car.inputs e.name with _ | i
  · rw [hi] at h
    rcases hj : position car.controls e.name with _ | i
    · simp only [hj] at h; cases h
    · simp only [hj] at h
      obtain ⟨lb, hl, h⟩ := Res.bind_eq_ok.1 h
      obtain ⟨ub, hu, h⟩ := Res.bind_eq_ok.1 h
      obtain ⟨l, hl⟩ := boundOption_effect T e "lower" i hl
      obtain ⟨u, hu⟩ := boundOption_effect T e "upper" i hu
      exact ⟨false, i, l, u, hj, fun c => by simp only [hl, hu, Res.bind_ok]; rfl⟩
  · rw [hi] at h
    obtain ⟨lb, hl, h⟩ := Res.bind_eq_ok.1 h
    obtain ⟨ub, hu, h⟩ := Res.bind_eq_ok.1 h
    obtain ⟨l, hl⟩ := boundOption_effect T e "lower" i hl
    obtain ⟨u, hu⟩ := boundOption_effect T e "upper" i hu
    exact ⟨true, i, l, u, hi, fun c => by simp only [hl, hu, Res.bind_ok]; rfl⟩

theorem position_inj {l : List String} {n n' : String} {i : Nat} (h : position l n = some i) (h' : position l n' = some i) :
    n = n' := by
  unfold position at h h'
  split_ifs at h with h1
  split_ifs at h' with h2
  obtain rfl := Option.some.inj h
  have := Option.some.inj h'
  exact (List.idxOf_inj (List.idxOf_lt_length_iff.1 h1)).1 this.symm

/-- A loop over entries each of which either fails whatever came before or does something that commutes with what entries of other
names do. -/
theorem loop_perm {C : Type*} {f : C → Node → Res C}
    (he : ∀ e c c', f c e = .ok c' → ∃ g : C → C, ∀ c, f c e = .ok (g c))
    (hc : ∀ (e e' : Node) (g g' : C → C), e.name ≠ e'.name → (∀ c, f c e = .ok (g c)) → (∀ c, f c e' = .ok (g' c)) → ∀ c, g (g' c) = g' (g c))
    {l l' : List Node} (hp : l.Perm l') (hn : (l.map Node.name).Nodup) {c c' : C} (h : loop f l c = .ok c') :
    loop f l' c = .ok c' := by
  induction hp generalizing c with
  | nil => exact h
  | cons x _ ih =>
    rw [loop] at h ⊢
    obtain ⟨m, hm, h⟩ := Res.bind_eq_ok.1 h
    rw [hm, Res.bind_ok]
    exact ih (List.nodup_cons.1 hn).2 h
  | swap x y l =>
    have hxy : y.name ≠ x.name := by
      intro h
      have := (List.nodup_cons.1 hn).1
      rw [h] at this
      exact this (by simp)
    rw [loop] at h
    obtain ⟨m, hm, h⟩ := Res.bind_eq_ok.1 h
    rw [loop] at h
    obtain ⟨m', hm', h⟩ := Res.bind_eq_ok.1 h
    obtain ⟨g, hg⟩ := he _ _ _ hm
    obtain ⟨g', hg'⟩ := he _ _ _ hm'
    rw [loop, hg', Res.bind_ok, loop, hg, Res.bind_ok, hc y x g g' hxy hg hg' c]
    rw [hg] at hm
    obtain rfl := Res.ok.inj hm
    rw [hg'] at hm'
    obtain rfl := Res.ok.inj hm'
    exact h
  | trans h1 _ ih1 ih2 => exact ih2 ((h1.map _).nodup_iff.1 hn) (ih1 hn h)

theorem controls_perm (T : Texts K) (car : CarType K) {l l' : List Node} (hp : Reordered l l') {c c' : Config K}
    (h : loop (controlOption T car) l c = .ok c') : loop (controlOption T car) l' c = .ok c' := by
  refine loop_perm (fun e c c' h => ?_) (fun e e' g g' hne hg hg' c => ?_) hp.1 hp.2 h
  · obtain ⟨i, t, m, x, -, hg⟩ := controlOption_effect T car e h
    exact ⟨_, hg⟩
  · obtain ⟨i, t, m, x, hi, hq⟩ := controlOption_effect T car e (hg c)
    obtain ⟨j, t', m', x', hj, hq'⟩ := controlOption_effect T car e' (hg' c)
    have e1 : ∀ c, g c = controlEffect i t m x c := fun c => Res.ok.inj ((hg c).symm.trans (hq c))
    have e2 : ∀ c, g' c = controlEffect j t' m' x' c := fun c => Res.ok.inj ((hg' c).symm.trans (hq' c))
    have hij : i ≠ j := by
      rintro rfl
      exact hne (position_inj hi hj)
    simp only [e1, e2, controlEffect]
    rw [put_comm hij, put_comm hij, put_comm hij]

theorem bounds_perm (T : Texts K) (car : CarType K) {l l' : List Node} (hp : Reordered l l') {c c' : Config K}
    (h : loop (variableOption T car) l c = .ok c') : loop (variableOption T car) l' c = .ok c' := by
  refine loop_perm (fun e c c' h => ?_) (fun e e' g g' hne hg hg' c => ?_) hp.1 hp.2 h
  · obtain ⟨b, i, l, u, -, hg⟩ := variableOption_effect T car e h
    exact ⟨_, hg⟩
  · obtain ⟨b, i, l, u, hi, hq⟩ := variableOption_effect T car e (hg c)
    obtain ⟨b', j, l', u', hj, hq'⟩ := variableOption_effect T car e' (hg' c)
    have e1 : ∀ c, g c = boundEffect b i l u c := fun c => Res.ok.inj ((hg c).symm.trans (hq c))
    have e2 : ∀ c, g' c = boundEffect b' j l' u' c := fun c => Res.ok.inj ((hg' c).symm.trans (hq' c))
    have hij : b = b' → i ≠ j := by
      rintro rfl rfl
      exact hne (position_inj hi hj)
    simp only [e1, e2, boundEffect]
    cases b <;> cases b' <;> simp only [cond_true, cond_false]
    · rw [put_comm (hij rfl), put_comm (hij rfl)]
    · rw [put_comm (hij rfl), put_comm (hij rfl)]

/-- What corresponds to an option in two documents with the same options. -/
def Same (e e' : Node) : Prop :=
  e = e' ∨ ∃ n ∈ ["control_variables", "variable_bounds"], ∃ t a s s', e = .mk n t a s ∧ e' = .mk n t a s' ∧ Reordered s s'

theorem Same.name_eq {e e' : Node} (h : Same e e') : e.name = e'.name := by
  rcases h with rfl | ⟨n, -, t, a, s, s', rfl, rfl, -⟩ <;> rfl

theorem find_same {l l' : List Node} (h : List.Forall₂ Same l l') (n : String) :
    Option.Rel Same (l.find? fun c => c.name = n) (l'.find? fun c => c.name = n) := by
  induction h with
  | nil => exact .none
  | @cons a b _ _ hab _ ih =>
    simp only [List.find?_cons, hab.name_eq]
    by_cases hb : b.name = n
    · simp only [hb, decide_true]; exact .some hab
    · simp only [hb, decide_false]; exact ih

theorem find_skip (l l' : List Node) {e : Node} {n : String} (h : e.name ≠ n) :
    ((l ++ e :: l').find? fun c => c.name = n) = (l ++ l').find? fun c => c.name = n := by
  rw [List.find?_append, List.find?_append, List.find?_cons_of_neg (by simpa using h)]

theorem find_repeated (l l' : List Node) {e : Node} (h : e.name ∈ l.map Node.name) (n : String) :
    ((l ++ e :: l').find? fun c => c.name = n) = (l ++ l').find? fun c => c.name = n := by
  by_cases hn : e.name = n
  · obtain ⟨x, hx, hxe⟩ := List.mem_map.1 h
    have : (l.find? fun c => c.name = n).isSome := List.find?_isSome.2 ⟨x, hx, by simp [hxe, hn]⟩
    obtain ⟨y, hy⟩ := Option.isSome_iff_exists.1 this
    rw [List.find?_append, List.find?_append, hy]
    rfl
  · exact find_skip l l' hn

/-- A lap of the same options in another order. -/
theorem configure_same [Field K] (T : Texts K) (car : CarType K) (tables : String → Option (List K)) (junkQ junkU : Row K)
    {d d' : Node} (hd : d.name = d'.name) (h : ∀ n, Option.Rel Same (child? d n) (child? d' n)) {c : Config K}
    (hc : configure T car tables junkQ junkU (.doc d) = .ok c) : configure T car tables junkQ junkU (.doc d') = .ok c := by
  have b : ∀ n, n ∉ ["control_variables", "variable_bounds"] → child? d n = child? d' n := by
    intro n hn
    have hr := h n
    rcases h1 : child? d n with _ | e <;> rcases h2 : child? d' n with _ | e' <;> rw [h1, h2] at hr
    · cases hr
    · cases hr
    · obtain hr : Same e e' := by cases hr; assumption
      rcases hr with rfl | ⟨m, hm, t, a, s, s', rfl, rfl, -⟩
      · rfl
      · have := List.find?_some h1
        have hmn : m = n := of_decide_eq_true this
        exact absurd (hmn ▸ hm) hn
  have a : ∀ n, n ∉ ["control_variables", "variable_bounds"] → ∀ p, find? d (n :: p) = find? d' (n :: p) :=
    fun n hn p => find?_agree hd (b n hn) p
  have a' : ∀ n ∈ lapOptionNames.filter (fun n => n ∉ ["control_variables", "variable_bounds"]), ∀ p,
      find? d (n :: p) = find? d' (n :: p) := fun n hn p => a n (by simpa using (List.mem_filter.1 hn).2) p
  have e : lapOptionNames.filter (fun n => n ∉ ["control_variables", "variable_bounds"]) =
    ["warm_start", "save_warm_start", "write_xml", "xml_file_name", "print_level", "output_variables", "steady_state_speed",
      "initial_speed", "closed_simulation", "initial_condition", "sigma", "compute_sensitivity", "integral_constraints"] := by
    decide +kernel
  rw [e] at a'
  simp only [List.forall_mem_cons] at a'
  obtain ⟨a1, a2, a3, a4, a5, a6, a7, a8, a9, a10, a11, a12, a13, -⟩ := a'
  have k : ∀ n ∈ ["control_variables", "variable_bounds"], (find? d [n] = find? d' [n]) ∨ ∃ e e', find? d [n] = some e ∧
      find? d' [n] = some e' ∧ Reordered e.children e'.children := by
    intro n _
    by_cases ho : d.name = "options"
    · have ho' : d'.name = "options" := hd ▸ ho
      have hr := h n
      simp only [find?, if_pos ho, if_pos ho', descend]
      rcases h1 : child? d n with _ | e <;> rcases h2 : child? d' n with _ | e' <;> rw [h1, h2] at hr
      · exact .inl rfl
      · cases hr
      · cases hr
      · obtain hr : Same e e' := by cases hr; assumption
        rcases hr with rfl | ⟨m, hm, t, a, s, s', rfl, rfl, hs⟩
        · exact .inl rfl
        · exact .inr ⟨_, _, rfl, rfl, hs⟩
    · have ho' : d'.name ≠ "options" := hd ▸ ho
      exact .inl (by simp only [find?, if_neg ho, if_neg ho'])
  have kc : ∀ c c', controlsOption T car d c = .ok c' → controlsOption T car d' c = .ok c' := by
    intro c c' hc
    unfold controlsOption at hc ⊢
    rcases k "control_variables" (by simp) with hk | ⟨e, e', h1, h2, hs⟩
    · rw [← hk]; exact hc
    · rw [h1] at hc; rw [h2]; exact controls_perm T car hs hc
  have kb : ∀ c c', boundsOption T car d c = .ok c' → boundsOption T car d' c = .ok c' := by
    intro c c' hc
    unfold boundsOption at hc ⊢
    rcases k "variable_bounds" (by simp) with hk | ⟨e, e', h1, h2, hs⟩
    · rw [← hk]; exact hc
    · rw [h1] at hc; rw [h2]; exact bounds_perm T car hs hc
  have step : ∀ {α : Type _} {x : Res α} {f g : α → Res (Config K)}, (∀ y, f y = .ok c → g y = .ok c) → x.bind f = .ok c →
      x.bind g = .ok c := by
    intro α x f g hfg h
    obtain ⟨y, hy, h⟩ := Res.bind_eq_ok.1 h
    rw [hy, Res.bind_ok]
    exact hfg y h
  simp only [configure, option, fileOption, outputOption, speedOption, initialOption, fromTable, integralsOption,
    a1, a2, a3, a4, a5, a6, a7, a8, a9, a10, a11, a12, a13] at hc ⊢
  revert hc
  refine step fun c1 => step fun c2 => step fun c3 => step fun c4 => step fun c5 => step fun c6 => step fun c7 => step fun c8 =>
    step fun c9 => step fun c10 => step fun c11 h => ?_
  obtain ⟨c12, h12, h⟩ := Res.bind_eq_ok.1 h
  rw [kc _ _ h12, Res.bind_ok]
  exact step (fun c13 h => kb _ _ h) h

end Verif.LapOptions
