import Verif.Spec.LapOptions

/-!
# Lemmas on the options of an optimal lap
-/

set_option autoImplicit false

namespace Verif.LapOptions

open Verif.Control Verif.Transcription

variable {K : Type*}

theorem orThrow_eq_ok {α : Type*} {o : Option α} {a : α} : orThrow o = .ok a ↔ o = some a := by
  cases o <;> simp [orThrow]

theorem position_eq_some {l : List String} (hl : l.Nodup) {n : String} {i : Nat} :
    position l n = some i ↔ l[i]? = some n := by
  unfold position
  by_cases h : l.idxOf n < l.length
  · rw [if_pos h]
    constructor
    · intro e
      obtain rfl := Option.some.inj e
      rw [List.getElem?_eq_getElem h, List.getElem_idxOf h]
    · intro e
      obtain ⟨hi, e⟩ := List.getElem?_eq_some_iff.1 e
      rw [← e, hl.idxOf_getElem i hi]
  · rw [if_neg h]
    simp only [reduceCtorEq, false_iff]
    intro e
    exact h (List.idxOf_lt_length_of_mem (List.mem_of_getElem? e))

theorem position_eq_none {l : List String} {n : String} : position l n = none ↔ n ∉ l := by
  unfold position
  by_cases h : l.idxOf n < l.length
  · simp [h, List.idxOf_lt_length_iff.1 h]
  · simp only [h, if_false, true_iff]
    exact fun h' => h (List.idxOf_lt_length_iff.2 h')

/-! ### Single options -/

theorem option_ok {α C : Type*} {d : Node} {p : String} {read : String → Res α} {put : C → α → C} {c c' : C}
    (h : option d p read put c = .ok c') :
    (find? d [p] = none ∧ c' = c) ∨ ∃ e a, find? d [p] = some e ∧ read e.text = .ok a ∧ c' = put c a := by
  unfold option at h
  split at h
  · rename_i e
    exact .inl ⟨e, (Res.ok.inj h).symm⟩
  · rename_i e he
    obtain ⟨a, h1, h2⟩ := Res.bind_eq_ok.1 h
    exact .inr ⟨e, a, he, h1, (Res.ok.inj h2).symm⟩

/-- An option sets its member to a value that reads it. -/
theorem option_reads {α C : Type*} {d : Node} {p : String} {read : String → Res α} {put : C → α → C} {c c' : C}
    {get : C → α} (hsame : put c (get c) = c)
    (h : option d p read put c = .ok c') :
    ∃ a, Reads (find? d [p]) read (get c) a ∧ c' = put c a := by
  rcases option_ok h with ⟨h1, rfl⟩ | ⟨e, a, h1, h2, rfl⟩
  · exact ⟨get c', by simp [Reads, h1], hsame.symm⟩
  · exact ⟨a, by simp [Reads, h1, h2], rfl⟩

/-! ### Loops -/

/-- One turn: the value given, if one is given. -/
def Gives {α : Type*} (o : Option (Res α)) (old new : α) : Prop :=
  match o with
  | none => new = old
  | some r => r = .ok new

theorem loop_latest {α C β : Type*} {f : C → β → Res C} {g : β → Option (Res α)} {get : C → α}
    (hf : ∀ c e c', f c e = .ok c' →
      Gives (g e) (get c) (get c')) :
    ∀ (l : List β) (c c' : C), loop f l c = .ok c' → Latest l g (get c) (get c') := by
  intro l
  induction l with
  | nil =>
    intro c c' h
    obtain rfl := Res.ok.inj h
    exact .inl ⟨by simp, rfl⟩
  | cons e l ih =>
    intro c c' h
    obtain ⟨c1, h1, h2⟩ := Res.bind_eq_ok.1 h
    have hs := hf c e c1 h1
    rcases ih c1 c' h2 with ⟨hn, hv⟩ | ⟨bef, e', aft, hl, hg, hn⟩
    · unfold Gives at hs
      rcases hge : g e with _ | r
      · rw [hge] at hs
        exact .inl ⟨by
          intro x hx
          rcases List.mem_cons.1 hx with rfl | hx
          · exact hge
          · exact hn x hx, hv.trans hs⟩
      · rw [hge] at hs
        exact .inr ⟨[], e, l, rfl, by rw [hge, hv, ← hs], hn⟩
    · exact .inr ⟨e :: bef, e', aft, by rw [hl]; rfl, hg, hn⟩

theorem loop_inv {C β : Type*} {f : C → β → Res C} {P : C → C → Prop} (hr : ∀ c, P c c)
    (ht : ∀ a b c, P a b → P b c → P a c) (hf : ∀ c e c', f c e = .ok c' → P c c') :
    ∀ (l : List β) (c c' : C), loop f l c = .ok c' → P c c' := by
  intro l
  induction l with
  | nil =>
    intro c c' h
    obtain rfl := Res.ok.inj h
    exact hr _
  | cons e l ih =>
    intro c c' h
    obtain ⟨c1, h1, h2⟩ := Res.bind_eq_ok.1 h
    exact ht _ _ _ (hf _ _ _ h1) (ih _ _ h2)

/-- A loop whose steps succeed exactly for the good entries succeeds exactly when all entries are good. -/
theorem loop_ok_iff {C β : Type*} {f : C → β → Res C} {P : β → Prop}
    (hf : ∀ c e, (∃ c', f c e = .ok c') ↔ P e) :
    ∀ (l : List β) (c : C), (∃ c', loop f l c = .ok c') ↔ ∀ e ∈ l, P e := by
  intro l
  induction l with
  | nil => intro c; simp [loop]
  | cons e l ih =>
    intro c
    simp only [loop, Res.bind_eq_ok, List.forall_mem_cons]
    constructor
    · rintro ⟨c', c1, h1, h2⟩
      exact ⟨(hf c e).1 ⟨c1, h1⟩, (ih c1).1 ⟨c', h2⟩⟩
    · rintro ⟨h1, h2⟩
      obtain ⟨c1, h1⟩ := (hf c e).2 h1
      obtain ⟨c', h2⟩ := (ih c1).2 h2
      exact ⟨c', c1, h1, h2⟩

/-! ### Control variables -/

theorem controlOption_ok {T : Texts K} {car : CarType K} {c c' : Config K} {e : Node}
    (h : controlOption T car c e = .ok c') :
    ∃ i t, position car.controls e.name = some i ∧ attr e "optimal_control_type" = .ok t ∧
      ((t = "dont optimize" ∨ t = "constant") ∧ c' = { c with types := Function.update c.types i t } ∨
       t = "hypermesh" ∧ (∃ n x, child? e "hypermesh" = some n ∧ T.nums n.text = .ok x ∧
          c' = { c with types := Function.update c.types i t,
                        hypermeshes := Function.update c.hypermeshes i x }) ∨
       t = "full-mesh" ∧ child? e "dissipation" = none ∧
          c' = { c with types := Function.update c.types i t } ∨
       t = "full-mesh" ∧ (∃ n x, child? e "dissipation" = some n ∧ T.num n.text = .ok x ∧
          c' = { c with types := Function.update c.types i t,
                        dissipations := Function.update c.dissipations i x })) := by
  unfold controlOption at h
  rcases hp : position car.controls e.name with _ | i
  · simp [hp] at h
  · rw [hp] at h
    obtain ⟨t, ht, h⟩ := Res.bind_eq_ok.1 h
    refine ⟨i, t, rfl, ht, ?_⟩
    by_cases h1 : t = "dont optimize"
    · rw [if_pos h1] at h
      exact .inl ⟨.inl h1, (Res.ok.inj h).symm⟩
    rw [if_neg h1] at h
    by_cases h2 : t = "constant"
    · rw [if_pos h2] at h
      exact .inl ⟨.inr h2, (Res.ok.inj h).symm⟩
    rw [if_neg h2] at h
    by_cases h3 : t = "hypermesh"
    · rw [if_pos h3] at h
      obtain ⟨n, h4, h⟩ := Res.bind_eq_ok.1 h
      obtain ⟨x, h5, h⟩ := Res.bind_eq_ok.1 h
      exact .inr (.inl ⟨h3, n, x, orThrow_eq_ok.1 h4, h5, (Res.ok.inj h).symm⟩)
    rw [if_neg h3] at h
    by_cases h4 : t = "full-mesh"
    · rw [if_pos h4] at h
      rcases hd : child? e "dissipation" with _ | d
      · rw [hd] at h
        exact .inr (.inr (.inl ⟨h4, rfl, (Res.ok.inj h).symm⟩))
      · rw [hd] at h
        obtain ⟨x, h5, h⟩ := Res.bind_eq_ok.1 h
        exact .inr (.inr (.inr ⟨h4, d, x, rfl, h5, (Res.ok.inj h).symm⟩))
    · rw [if_neg h4] at h
      exact absurd h (by simp)

theorem controlOption_accepts {T : Texts K} {car : CarType K} (c : Config K) (e : Node) :
    (∃ c', controlOption T car c e = .ok c') ↔ ControlEntry T car e := by
  constructor
  · rintro ⟨c', h⟩
    obtain ⟨i, t, hp, ht, h⟩ := controlOption_ok h
    have hm : e.name ∈ car.controls := by
      by_contra hn
      rw [position_eq_none.2 hn] at hp
      exact absurd hp (by simp)
    refine ⟨hm, ?_⟩
    rcases h with ⟨rfl | rfl, -⟩ | ⟨rfl, n, x, h1, h2, -⟩ | ⟨rfl, h1, -⟩ | ⟨rfl, n, x, h1, h2, -⟩
    · exact .inl ht
    · exact .inr (.inl ht)
    · exact .inr (.inr (.inl ⟨ht, n, x, h1, h2⟩))
    · exact .inr (.inr (.inr ⟨ht, fun _ he => by simp [h1] at he⟩))
    · refine .inr (.inr (.inr ⟨ht, fun _ he => ?_⟩))
      obtain rfl := Option.some.inj (h1.symm.trans he)
      exact ⟨x, h2⟩
  · rintro ⟨hm, h⟩
    rcases hp : position car.controls e.name with _ | i
    · exact absurd hm (position_eq_none.1 hp)
    · unfold controlOption
      rw [hp]
      rcases h with h | h | ⟨h, n, x, h1, h2⟩ | ⟨h, h1⟩
      · exact ⟨_, by rw [h]; rfl⟩
      · exact ⟨_, by rw [h]; rfl⟩
      · exact ⟨{ c with types := Function.update c.types i "hypermesh", hypermeshes := _ }, by
          rw [h]; simp only [Res.bind_ok, h1, orThrow, h2]; rfl⟩
      · rcases hd : child? e "dissipation" with _ | d
        · exact ⟨{ c with types := Function.update c.types i "full-mesh" }, by
            rw [h]; simp only [Res.bind_ok]; rfl⟩
        · obtain ⟨x, hx⟩ := h1 d hd
          exact ⟨{ c with types := Function.update c.types i "full-mesh", dissipations := _ }, by
            rw [h]; simp only [Res.bind_ok, hx]; rfl⟩

section
variable {T : Texts K} {car : CarType K} (hn : car.controls.Nodup) {j : Nat} (hj : j < car.controls.length)
include hn hj

theorem name_eq_iff {e : Node} {i : Nat} (hi : position car.controls e.name = some i) :
    e.name = car.controls[j] ↔ j = i := by
  rw [position_eq_some hn] at hi
  obtain ⟨h1, h2⟩ := List.getElem?_eq_some_iff.1 hi
  rw [← h2]
  constructor
  · intro h
    exact ((List.Nodup.getElem_inj_iff hn).1 h).symm
  · rintro rfl
    rfl

theorem controlOption_type {c c' : Config K} {e : Node} (h : controlOption T car c e = .ok c') :
    Gives (typeOf car.controls[j] e) (c.types j) (c'.types j) := by
  obtain ⟨i, t, hp, ht, h⟩ := controlOption_ok h
  have hiff := name_eq_iff hn hj hp
  have hty : c'.types = Function.update c.types i t := by
    rcases h with ⟨-, rfl⟩ | ⟨-, _, _, -, -, rfl⟩ | ⟨-, -, rfl⟩ | ⟨-, _, _, -, -, rfl⟩ <;> rfl
  unfold Gives typeOf
  by_cases hji : j = i
  · rw [if_pos (hiff.2 hji)]
    simp only [hty, hji, Function.update_self, ht]
  · rw [if_neg fun h => hji (hiff.1 h)]
    simp only [hty, Function.update_of_ne hji]

theorem controlOption_dissipation {c c' : Config K} {e : Node} (h : controlOption T car c e = .ok c') :
    Gives (dissipationOf T car.controls[j] e) (c.dissipations j) (c'.dissipations j) := by
  obtain ⟨i, t, hp, ht, h⟩ := controlOption_ok h
  have hiff := name_eq_iff hn hj hp
  unfold Gives dissipationOf
  by_cases hji : e.name = car.controls[j] ∧ attr e "optimal_control_type" = .ok "full-mesh"
  · rw [if_pos hji]
    obtain rfl := hiff.1 hji.1
    obtain rfl : t = "full-mesh" := Res.ok.inj (ht.symm.trans hji.2)
    rcases h with ⟨h0 | h0, -⟩ | ⟨h0, -⟩ | ⟨-, h1, rfl⟩ | ⟨-, n, x, h1, h2, rfl⟩
    · simp at h0
    · simp at h0
    · simp at h0
    · simp [h1]
    · simp [h1, h2]
  · rw [if_neg hji]
    rcases h with ⟨-, rfl⟩ | ⟨-, _, _, -, -, rfl⟩ | ⟨-, -, rfl⟩ | ⟨h0, _, _, -, -, rfl⟩
    · rfl
    · rfl
    · rfl
    · have hne : j ≠ i := fun he => hji ⟨hiff.2 he, by rw [ht, h0]⟩
      exact Function.update_of_ne hne _ _

theorem controlOption_hypermesh {c c' : Config K} {e : Node} (h : controlOption T car c e = .ok c') :
    Gives (hypermeshOf T car.controls[j] e) (c.hypermeshes j) (c'.hypermeshes j) := by
  obtain ⟨i, t, hp, ht, h⟩ := controlOption_ok h
  have hiff := name_eq_iff hn hj hp
  unfold Gives hypermeshOf
  by_cases hji : e.name = car.controls[j] ∧ attr e "optimal_control_type" = .ok "hypermesh"
  · rw [if_pos hji]
    obtain rfl := hiff.1 hji.1
    obtain rfl : t = "hypermesh" := Res.ok.inj (ht.symm.trans hji.2)
    rcases h with ⟨h0 | h0, -⟩ | ⟨-, n, x, h1, h2, rfl⟩ | ⟨h0, -⟩ | ⟨h0, -⟩
    · simp at h0
    · simp at h0
    · simp [h1, h2]
    · simp at h0
    · simp at h0
  · rw [if_neg hji]
    rcases h with ⟨-, rfl⟩ | ⟨h0, _, _, -, -, rfl⟩ | ⟨-, -, rfl⟩ | ⟨-, _, _, -, -, rfl⟩
    · rfl
    · have hne : j ≠ i := fun he => hji ⟨hiff.2 he, by rw [ht, h0]⟩
      exact Function.update_of_ne hne _ _
    · rfl
    · rfl

end

/-- The control variables change nothing else. -/
theorem controlOption_frame {T : Texts K} {car : CarType K} {c c' : Config K} {e : Node}
    (h : controlOption T car c e = .ok c') :
    c' = { c with types := c'.types, dissipations := c'.dissipations, hypermeshes := c'.hypermeshes } := by
  obtain ⟨i, t, -, -, h⟩ := controlOption_ok h
  rcases h with ⟨-, rfl⟩ | ⟨-, _, _, -, -, rfl⟩ | ⟨-, -, rfl⟩ | ⟨-, _, _, -, -, rfl⟩ <;> rfl

/-! ### Bounds -/

theorem boundOption_ok {T : Texts K} {e : Node} {n : String} {i : Nat} {b b' : Row K}
    (h : boundOption T e n i b = .ok b') :
    match (child? e n).map fun x => T.num x.text with
    | none => b' = b
    | some r => ∃ x, r = .ok x ∧ b' = Function.update b i x := by
  unfold boundOption at h
  rcases hc : child? e n with _ | d
  · rw [hc] at h
    exact (Res.ok.inj h).symm
  · rw [hc] at h
    obtain ⟨x, h1, h2⟩ := Res.bind_eq_ok.1 h
    exact ⟨x, h1, (Res.ok.inj h2).symm⟩

theorem variableOption_ok {T : Texts K} {car : CarType K} {c c' : Config K} {e : Node}
    (h : variableOption T car c e = .ok c') :
    wellFormedBound e = true ∧
    ((∃ i lb ub, position car.inputs e.name = some i ∧ boundOption T e "lower" i c.inputsLb = .ok lb ∧
        boundOption T e "upper" i c.inputsUb = .ok ub ∧ c' = { c with inputsLb := lb, inputsUb := ub }) ∨
     (∃ i lb ub, position car.inputs e.name = none ∧ position car.controls e.name = some i ∧
        boundOption T e "lower" i c.controlsLb = .ok lb ∧
        boundOption T e "upper" i c.controlsUb = .ok ub ∧
        c' = { c with controlsLb := lb, controlsUb := ub })) := by
  unfold variableOption at h
  by_cases hw : wellFormedBound e = true
  · rw [if_pos hw] at h
    refine ⟨hw, ?_⟩
    rcases hp : position car.inputs e.name with _ | i
    · rw [hp] at h
      rcases hq : position car.controls e.name with _ | i
      · rw [hq] at h
        exact absurd h (by simp)
      · rw [hq] at h
        obtain ⟨lb, h1, h⟩ := Res.bind_eq_ok.1 h
        obtain ⟨ub, h2, h⟩ := Res.bind_eq_ok.1 h
        exact .inr ⟨i, lb, ub, rfl, rfl, h1, h2, (Res.ok.inj h).symm⟩
    · rw [hp] at h
      obtain ⟨lb, h1, h⟩ := Res.bind_eq_ok.1 h
      obtain ⟨ub, h2, h⟩ := Res.bind_eq_ok.1 h
      exact .inl ⟨i, lb, ub, rfl, h1, h2, (Res.ok.inj h).symm⟩
  · rw [if_neg hw] at h
    exact absurd h (by simp)

/-- Bounds change nothing else. -/
theorem variableOption_frame {T : Texts K} {car : CarType K} {c c' : Config K} {e : Node}
    (h : variableOption T car c e = .ok c') :
    c' = { c with inputsLb := c'.inputsLb, inputsUb := c'.inputsUb, controlsLb := c'.controlsLb,
                  controlsUb := c'.controlsUb } := by
  obtain ⟨-, ⟨_, _, _, -, -, -, rfl⟩ | ⟨_, _, _, -, -, -, -, rfl⟩⟩ := variableOption_ok h <;> rfl

/-- A bound set for position `i`, seen at position `j`. -/
theorem boundOption_at {T : Texts K} {e : Node} {side n : String} {i j : Nat} {b b' : Row K}
    (h : boundOption T e side i b = .ok b') (hiff : e.name = n ↔ j = i) :
    Gives (boundOf T side n e) (b j) (b' j) := by
  have h := boundOption_ok h
  unfold Gives boundOf
  by_cases hji : j = i
  · rw [if_pos (hiff.2 hji)]
    generalize (child? e side).map (fun x => T.num x.text) = o at h
    rcases o with _ | r
    · simp only [h]
    · obtain ⟨x, h1, h2⟩ := h
      simp only [h1, h2, hji, Function.update_self]
  · rw [if_neg fun h => hji (hiff.1 h)]
    generalize (child? e side).map (fun x => T.num x.text) = o at h
    rcases o with _ | r
    · simp only [h]
    · obtain ⟨x, h1, h2⟩ := h
      simp only [h2, Function.update_of_ne hji]

theorem position_iff {l : List String} (hn : l.Nodup) {j : Nat} (hj : j < l.length) {n : String} {i : Nat}
    (hi : position l n = some i) : n = l[j] ↔ j = i := by
  rw [position_eq_some hn] at hi
  obtain ⟨h1, h2⟩ := List.getElem?_eq_some_iff.1 hi
  rw [← h2]
  constructor
  · intro h
    exact ((List.Nodup.getElem_inj_iff hn).1 h).symm
  · rintro rfl
    rfl

theorem position_mem {l : List String} {n : String} {i : Nat} (h : position l n = some i) : n ∈ l := by
  by_contra hn
  rw [position_eq_none.2 hn] at h
  exact absurd h (by simp)

section
variable {T : Texts K} {car : CarType K} (hn : (car.inputs ++ car.controls).Nodup)
include hn

theorem variableOption_input {c c' : Config K} {e : Node} (h : variableOption T car c e = .ok c') {j : Nat}
    (hj : j < car.inputs.length) :
    Gives (boundOf T "lower" car.inputs[j] e) (c.inputsLb j) (c'.inputsLb j) ∧
    Gives (boundOf T "upper" car.inputs[j] e) (c.inputsUb j) (c'.inputsUb j) := by
  have hd := List.nodup_append.1 hn
  obtain ⟨-, ⟨i, lb, ub, hp, h1, h2, rfl⟩ | ⟨i, lb, ub, hp, hq, h1, h2, rfl⟩⟩ := variableOption_ok h
  · have hiff := position_iff hd.1 hj hp
    exact ⟨boundOption_at h1 hiff, boundOption_at h2 hiff⟩
  · have hne : e.name ≠ car.inputs[j] := fun he => position_eq_none.1 hp (he ▸ List.getElem_mem hj)
    simp [Gives, boundOf, hne]

theorem variableOption_control {c c' : Config K} {e : Node} (h : variableOption T car c e = .ok c') {j : Nat}
    (hj : j < car.controls.length) :
    Gives (boundOf T "lower" car.controls[j] e) (c.controlsLb j) (c'.controlsLb j) ∧
    Gives (boundOf T "upper" car.controls[j] e) (c.controlsUb j) (c'.controlsUb j) := by
  have hd := List.nodup_append.1 hn
  obtain ⟨-, ⟨i, lb, ub, hp, h1, h2, rfl⟩ | ⟨i, lb, ub, hp, hq, h1, h2, rfl⟩⟩ := variableOption_ok h
  · have hne : e.name ≠ car.controls[j] := fun he =>
      hd.2.2 _ (position_mem hp) _ (List.getElem_mem hj) he
    simp [Gives, boundOf, hne]
  · have hiff := position_iff hd.2.1 hj hq
    exact ⟨boundOption_at h1 hiff, boundOption_at h2 hiff⟩

end

/-- An entry of `variable_bounds` is accepted exactly when it is well formed. -/
theorem variableOption_accepts {T : Texts K} {car : CarType K} (c : Config K) (e : Node) :
    (∃ c', variableOption T car c e = .ok c') ↔ BoundEntry T car e := by
  have hb : ∀ (n : String) (i : Nat) (b : Row K),
      (∃ b', boundOption T e n i b = .ok b') ↔ Readable (child? e n) T.num := by
    intro n i b
    unfold boundOption Readable
    rcases child? e n with _ | d
    · simp
    · simp only [Option.some.injEq, forall_eq', Res.bind_eq_ok]
      constructor
      · rintro ⟨b', x, hx, -⟩
        exact ⟨x, hx⟩
      · rintro ⟨x, hx⟩
        exact ⟨_, x, hx, rfl⟩
  have hw : wellFormedBound e = true ↔
      e.children.map Node.name ∈ [["lower"], ["upper"], ["lower", "upper"], ["upper", "lower"]] := by
    unfold wellFormedBound
    rcases e.children.map Node.name with _ | ⟨a, _ | ⟨b, _ | ⟨c, l⟩⟩⟩ <;> simp
  have hr : wellFormedBound e = true →
      ((Readable (child? e "lower") T.num ∧ Readable (child? e "upper") T.num) ↔
        ∀ x ∈ e.children, ∃ y, T.num x.text = .ok y) := by
    intro h
    rw [hw] at h
    unfold child? Readable
    clear hw hb
    generalize e.children = ch at h ⊢
    rcases ch with _ | ⟨a, _ | ⟨b, _ | ⟨c, l⟩⟩⟩
    · simp at h
    · rcases (by simpa using h : a.name = "lower" ∨ a.name = "upper") with h | h <;> simp [h]
    · rcases (by simpa using h : (a.name = "lower" ∧ b.name = "upper") ∨
        (a.name = "upper" ∧ b.name = "lower")) with h | h <;> simp [h, and_comm]
    · simp at h
  constructor
  · rintro ⟨c', h⟩
    obtain ⟨h0, ⟨i, lb, ub, hp, h1, h2, -⟩ | ⟨i, lb, ub, -, hp, h1, h2, -⟩⟩ := variableOption_ok h
    · exact ⟨List.mem_append_left _ (position_mem hp), hw.1 h0,
        (hr h0).1 ⟨(hb _ _ _).1 ⟨lb, h1⟩, (hb _ _ _).1 ⟨ub, h2⟩⟩⟩
    · exact ⟨List.mem_append_right _ (position_mem hp), hw.1 h0,
        (hr h0).1 ⟨(hb _ _ _).1 ⟨lb, h1⟩, (hb _ _ _).1 ⟨ub, h2⟩⟩⟩
  · rintro ⟨h1, h2, h3⟩
    have h0 := hw.2 h2
    obtain ⟨hl, hu⟩ := (hr h0).2 h3
    unfold variableOption
    rw [if_pos h0]
    rcases hp : position car.inputs e.name with _ | i
    · rcases hq : position car.controls e.name with _ | i
      · rcases List.mem_append.1 h1 with h1 | h1
        · exact absurd h1 (position_eq_none.1 hp)
        · exact absurd h1 (position_eq_none.1 hq)
      · obtain ⟨lb, h4⟩ := (hb "lower" i c.controlsLb).2 hl
        obtain ⟨ub, h5⟩ := (hb "upper" i c.controlsUb).2 hu
        exact ⟨{ c with controlsLb := lb, controlsUb := ub }, by simp only [h4, h5, Res.bind_ok]⟩
    · obtain ⟨lb, h4⟩ := (hb "lower" i c.inputsLb).2 hl
      obtain ⟨ub, h5⟩ := (hb "upper" i c.inputsUb).2 hu
      exact ⟨{ c with inputsLb := lb, inputsUb := ub }, by simp only [h4, h5, Res.bind_ok]⟩

/-! ### Integral constraints -/

theorem integralOption_ok {T : Texts K} {c c' : Config K} {e : Node} (h : integralOption T c e = .ok c') :
    ∃ l x u y, child? e "lower_bound" = some l ∧ T.num l.text = .ok x ∧ child? e "upper_bound" = some u ∧
      T.num u.text = .ok y ∧ c' = { c with integral := c.integral ++ [(e.name, x, y)] } := by
  obtain ⟨l, h1, h⟩ := Res.bind_eq_ok.1 h
  obtain ⟨x, h2, h⟩ := Res.bind_eq_ok.1 h
  obtain ⟨u, h3, h⟩ := Res.bind_eq_ok.1 h
  obtain ⟨y, h4, h⟩ := Res.bind_eq_ok.1 h
  exact ⟨l, x, u, y, orThrow_eq_ok.1 h1, h2, orThrow_eq_ok.1 h3, h4, (Res.ok.inj h).symm⟩

theorem integralOption_accepts {T : Texts K} (c : Config K) (e : Node) :
    (∃ c', integralOption T c e = .ok c') ↔ IntegralEntry T e := by
  constructor
  · rintro ⟨c', h⟩
    obtain ⟨l, x, u, y, h1, h2, h3, h4, -⟩ := integralOption_ok h
    exact ⟨⟨l, x, h1, h2⟩, ⟨u, y, h3, h4⟩⟩
  · rintro ⟨⟨l, x, h1, h2⟩, ⟨u, y, h3, h4⟩⟩
    exact ⟨_, by simp only [integralOption, h1, h2, h3, h4, orThrow, Res.bind_ok]; rfl⟩

theorem integralLoop_ok {T : Texts K} : ∀ (l : List Node) (c c' : Config K),
    loop (integralOption T) l c = .ok c' → ∃ qs, c' = { c with integral := c.integral ++ qs } ∧
      List.Forall₂ (fun e q => q.1 = e.name ∧ (∃ b, child? e "lower_bound" = some b ∧ T.num b.text = .ok q.2.1) ∧
        ∃ b, child? e "upper_bound" = some b ∧ T.num b.text = .ok q.2.2) l qs := by
  intro l
  induction l with
  | nil =>
    intro c c' h
    obtain rfl := Res.ok.inj h
    exact ⟨[], by simp, .nil⟩
  | cons e l ih =>
    intro c c' h
    obtain ⟨c1, h1, h2⟩ := Res.bind_eq_ok.1 h
    obtain ⟨lo, x, u, y, h3, h4, h5, h6, rfl⟩ := integralOption_ok h1
    obtain ⟨qs, rfl, hq⟩ := ih _ _ h2
    exact ⟨(e.name, x, y) :: qs, by simp, .cons ⟨rfl, ⟨lo, h3, h4⟩, ⟨u, h5, h6⟩⟩ hq⟩

/-! ### The whole configuration -/

theorem fileOption_ok {d : Node} {c c' : Config K} (h : fileOption d c = .ok c') :
    ∃ f, c' = { c with xmlFile := f } ∧
      (c.writeXml = true → ∃ e, find? d ["xml_file_name"] = some e ∧ f = e.text) ∧
      (c.writeXml = false → f = c.xmlFile) := by
  unfold fileOption at h
  by_cases hw : c.writeXml = true
  · rw [if_pos hw] at h
    obtain ⟨e, h1, h⟩ := Res.bind_eq_ok.1 h
    exact ⟨e.text, (Res.ok.inj h).symm, fun _ => ⟨e, orThrow_eq_ok.1 h1, rfl⟩, fun h0 => by simp [h0] at hw⟩
  · rw [if_neg hw] at h
    exact ⟨c.xmlFile, (Res.ok.inj h).symm, fun h0 => absurd h0 hw, fun _ => rfl⟩

theorem outputOption_ok {T : Texts K} {car : CarType K} {d : Node} {c c' : Config K}
    (h : outputOption T car d c = .ok c') :
    ∃ p vs, c' = { c with pre := p, vars := vs } ∧
      (find? d ["output_variables"] = none → p = c.pre ∧ vs = c.vars) ∧
      (find? d ["output_variables"] ≠ none →
        (∃ e, find? d ["output_variables", "prefix"] = some e ∧ p = T.trim e.text) ∧
        (∀ v, find? d ["output_variables", "variables"] = some v → vs = v.children.map Node.name) ∧
        (find? d ["output_variables", "variables"] = none → vs = allVariables car)) := by
  unfold outputOption at h
  rcases ho : find? d ["output_variables"] with _ | o
  · rw [ho] at h
    exact ⟨c.pre, c.vars, (Res.ok.inj h).symm, fun _ => ⟨rfl, rfl⟩, fun h0 => absurd rfl h0⟩
  · rw [ho] at h
    obtain ⟨e, h1, h⟩ := Res.bind_eq_ok.1 h
    have h1 := orThrow_eq_ok.1 h1
    rcases hv : find? d ["output_variables", "variables"] with _ | v
    · rw [hv] at h
      exact ⟨T.trim e.text, _, (Res.ok.inj h).symm, fun h0 => by simp at h0,
        fun _ => ⟨⟨e, h1, rfl⟩, fun _ h0 => by simp at h0, fun _ => rfl⟩⟩
    · rw [hv] at h
      refine ⟨T.trim e.text, _, (Res.ok.inj h).symm, fun h0 => by simp at h0,
        fun _ => ⟨⟨e, h1, rfl⟩, fun v' h0 => ?_, fun h0 => by simp at h0⟩⟩
      obtain rfl := Option.some.inj h0
      rfl

theorem speedOption_ok {T : Texts K} {d : Node} {c c' : Config K} (h : speedOption T d c = .ok c') :
    ∃ x, c' = { c with speed := x } ∧ (find? d ["steady_state_speed"] = none → x = c.speed) ∧
      (find? d ["steady_state_speed"] ≠ none →
        ∃ e, find? d ["initial_speed"] = some e ∧ T.num e.text = .ok x) := by
  unfold speedOption at h
  rcases ho : find? d ["steady_state_speed"] with _ | o
  · rw [ho] at h
    exact ⟨c.speed, (Res.ok.inj h).symm, fun _ => rfl, fun h0 => absurd rfl h0⟩
  · rw [ho] at h
    obtain ⟨e, h1, h⟩ := Res.bind_eq_ok.1 h
    obtain ⟨x, h2, h⟩ := Res.bind_eq_ok.1 h
    exact ⟨x, (Res.ok.inj h).symm, fun h0 => by simp at h0, fun _ => ⟨e, orThrow_eq_ok.1 h1, h2⟩⟩

theorem fromTable_ok {tables : String → Option (List K)} {d : Node} {p : List String} {v : List K} :
    fromTable tables d p = .ok v ↔ TableVector tables (find? d p) v := by
  unfold fromTable TableVector
  simp only [Res.bind_eq_ok, orThrow_eq_ok, exists_and_left]

theorem copyInto_ok {n : Nat} {v : List K} {a a' : Row K} (h : copyInto n v a = .ok a') :
    v.length ≤ n ∧ Filled v a a' := by
  unfold copyInto at h
  by_cases hl : v.length ≤ n
  · rw [if_pos hl] at h
    obtain rfl := Res.ok.inj h
    exact ⟨hl, fun i hi => by simp [hi], fun i hi => by simp [hi]⟩
  · rw [if_neg hl] at h
    exact absurd h (by simp)

theorem initialOption_ok {car : CarType K} {tables : String → Option (List K)} {d : Node} {c c' : Config K}
    (h : initialOption car tables d c = .ok c') :
    ∃ b q u, c' = { c with setInitial := b, qStart := q, uStart := u } ∧
      (c.isClosed = true → b = c.setInitial ∧ q = c.qStart ∧ u = c.uStart) ∧
      (c.isClosed = false → b = true ∧ find? d ["initial_condition"] ≠ none ∧
        (∃ v, TableVector tables (find? d ["initial_condition", "q"]) v ∧ v.length ≤ car.inputs.length ∧
          Filled v c.qStart q) ∧
        (∃ v, TableVector tables (find? d ["initial_condition", "u"]) v ∧ v.length ≤ car.controls.length ∧
          Filled v c.uStart u)) := by
  unfold initialOption at h
  by_cases hc : c.isClosed = true
  · rw [if_pos hc] at h
    exact ⟨c.setInitial, c.qStart, c.uStart, (Res.ok.inj h).symm, fun _ => ⟨rfl, rfl, rfl⟩,
      fun h0 => by simp [h0] at hc⟩
  · rw [if_neg hc] at h
    rcases ho : find? d ["initial_condition"] with _ | o
    · rw [ho] at h
      exact absurd h (by simp)
    · rw [ho] at h
      obtain ⟨q, h1, h⟩ := Res.bind_eq_ok.1 h
      obtain ⟨u, h2, h⟩ := Res.bind_eq_ok.1 h
      obtain ⟨q', h3, h⟩ := Res.bind_eq_ok.1 h
      obtain ⟨u', h4, h⟩ := Res.bind_eq_ok.1 h
      exact ⟨true, q', u', (Res.ok.inj h).symm, fun h0 => absurd h0 hc, fun _ =>
        ⟨rfl, by simp, ⟨q, fromTable_ok.1 h1, copyInto_ok h3⟩, ⟨u, fromTable_ok.1 h2, copyInto_ok h4⟩⟩⟩

/-- The same apart from the control variables. -/
def SameButControls (a b : Config K) : Prop :=
  b = { a with types := b.types, dissipations := b.dissipations, hypermeshes := b.hypermeshes }

/-- The same apart from the bounds. -/
def SameButBounds (a b : Config K) : Prop :=
  b = { a with inputsLb := b.inputsLb, inputsUb := b.inputsUb, controlsLb := b.controlsLb, controlsUb := b.controlsUb }

theorem controlsOption_ok {T : Texts K} {car : CarType K} {d : Node} {c c' : Config K}
    (hn : car.controls.Nodup) (h : controlsOption T car d c = .ok c') :
    ∃ t di hy, c' = { c with types := t, dissipations := di, hypermeshes := hy } ∧
      (∀ e ∈ entries d "control_variables", ControlEntry T car e) ∧
      ∀ j (hj : j < car.controls.length),
        Latest (entries d "control_variables") (typeOf car.controls[j]) (c.types j) (t j) ∧
        Latest (entries d "control_variables") (dissipationOf T car.controls[j]) (c.dissipations j) (di j) ∧
        Latest (entries d "control_variables") (hypermeshOf T car.controls[j]) (c.hypermeshes j) (hy j) := by
  have hl : loop (controlOption T car) (entries d "control_variables") c = .ok c' := by
    unfold controlsOption at h
    unfold entries
    rcases ho : find? d ["control_variables"] with _ | o <;> rw [ho] at h <;> exact h
  refine ⟨c'.types, c'.dissipations, c'.hypermeshes, ?_, ?_, ?_⟩
  · refine loop_inv (P := SameButControls) (fun _ => rfl) ?_ (fun _ _ _ => controlOption_frame) _ _ _ hl
    intro a b c h1 h2
    cases a; cases b; cases c
    simp_all [SameButControls]
  · exact (loop_ok_iff (controlOption_accepts (T := T) (car := car)) _ c).1 ⟨c', hl⟩
  · intro j hj
    exact ⟨loop_latest (g := typeOf car.controls[j]) (get := fun c : Config K => c.types j) (fun _ _ _ => controlOption_type hn hj) _ _ _ hl,
      loop_latest (g := dissipationOf T car.controls[j]) (get := fun c : Config K => c.dissipations j)
        (fun _ _ _ => controlOption_dissipation hn hj) _ _ _ hl,
      loop_latest (g := hypermeshOf T car.controls[j]) (get := fun c : Config K => c.hypermeshes j)
        (fun _ _ _ => controlOption_hypermesh hn hj) _ _ _ hl⟩

theorem integralsOption_ok {T : Texts K} {d : Node} {c c' : Config K} (h : integralsOption T d c = .ok c') :
    ∃ qs, c' = { c with integral := c.integral ++ qs } ∧
      List.Forall₂ (fun e q => q.1 = e.name ∧ (∃ b, child? e "lower_bound" = some b ∧ T.num b.text = .ok q.2.1) ∧
        ∃ b, child? e "upper_bound" = some b ∧ T.num b.text = .ok q.2.2)
        (entries d "integral_constraints") qs := by
  refine integralLoop_ok _ c c' ?_
  unfold integralsOption at h
  unfold entries
  rcases ho : find? d ["integral_constraints"] with _ | o <;> rw [ho] at h <;> exact h

theorem boundsOption_ok {T : Texts K} {car : CarType K} {d : Node} {c c' : Config K}
    (hn : (car.inputs ++ car.controls).Nodup) (h : boundsOption T car d c = .ok c') :
    ∃ ql qu ul uu, c' = { c with inputsLb := ql, inputsUb := qu, controlsLb := ul, controlsUb := uu } ∧
      (∀ e ∈ entries d "variable_bounds", BoundEntry T car e) ∧
      (∀ j (hj : j < car.inputs.length),
        Latest (entries d "variable_bounds") (boundOf T "lower" car.inputs[j]) (c.inputsLb j) (ql j) ∧
        Latest (entries d "variable_bounds") (boundOf T "upper" car.inputs[j]) (c.inputsUb j) (qu j)) ∧
      (∀ j (hj : j < car.controls.length),
        Latest (entries d "variable_bounds") (boundOf T "lower" car.controls[j]) (c.controlsLb j) (ul j) ∧
        Latest (entries d "variable_bounds") (boundOf T "upper" car.controls[j]) (c.controlsUb j) (uu j)) := by
  have hl : loop (variableOption T car) (entries d "variable_bounds") c = .ok c' := by
    unfold boundsOption at h
    unfold entries
    rcases ho : find? d ["variable_bounds"] with _ | o <;> rw [ho] at h <;> exact h
  refine ⟨c'.inputsLb, c'.inputsUb, c'.controlsLb, c'.controlsUb, ?_, ?_, ?_, ?_⟩
  · refine loop_inv (P := SameButBounds) (fun _ => rfl) ?_
      (fun _ _ _ => variableOption_frame) _ _ _ hl
    intro a b c h1 h2
    cases a; cases b; cases c
    simp_all [SameButBounds]
  · exact (loop_ok_iff (variableOption_accepts (T := T) (car := car)) _ c).1 ⟨c', hl⟩
  · intro j hj
    exact ⟨loop_latest (g := boundOf T "lower" car.inputs[j]) (get := fun c : Config K => c.inputsLb j)
        (fun _ _ _ h => (variableOption_input hn h hj).1) _ _ _ hl,
      loop_latest (g := boundOf T "upper" car.inputs[j]) (get := fun c : Config K => c.inputsUb j)
        (fun _ _ _ h => (variableOption_input hn h hj).2) _ _ _ hl⟩
  · intro j hj
    exact ⟨loop_latest (g := boundOf T "lower" car.controls[j]) (get := fun c : Config K => c.controlsLb j)
        (fun _ _ _ h => (variableOption_control hn h hj).1) _ _ _ hl,
      loop_latest (g := boundOf T "upper" car.controls[j]) (get := fun c : Config K => c.controlsUb j)
        (fun _ _ _ h => (variableOption_control hn h hj).2) _ _ _ hl⟩

/-- Everything known of an accepted configuration. -/
structure Known [Field K] (T : Texts K) (car : CarType K) (tables : String → Option (List K)) (junkQ junkU : Row K)
    (d : Node) (c : Config K) : Prop where
  warm : Reads (find? d ["warm_start"]) T.bool false c.warmStart
  save : Reads (find? d ["save_warm_start"]) T.bool false c.saveWarmStart
  write : Reads (find? d ["write_xml"]) T.bool false c.writeXml
  file : (c.writeXml = true → ∃ e, find? d ["xml_file_name"] = some e ∧ c.xmlFile = e.text) ∧
    (c.writeXml = false → c.xmlFile = "optimal_laptime.xml")
  print : Reads (find? d ["print_level"]) T.int 0 c.printLevel
  noOutput : find? d ["output_variables"] = none → c.pre = "run/" ∧ c.vars = []
  output : find? d ["output_variables"] ≠ none →
    (∃ e, find? d ["output_variables", "prefix"] = some e ∧ c.pre = T.trim e.text) ∧
    (∀ v, find? d ["output_variables", "variables"] = some v → c.vars = v.children.map Node.name) ∧
    (find? d ["output_variables", "variables"] = none → c.vars = allVariables car)
  noSpeed : find? d ["steady_state_speed"] = none → c.speed = 50
  speed : find? d ["steady_state_speed"] ≠ none →
    ∃ e, find? d ["initial_speed"] = some e ∧ T.num e.text = .ok c.speed
  closed : Reads (find? d ["closed_simulation"]) T.bool true c.isClosed
  noInitial : c.isClosed = true → c.setInitial = false ∧ c.qStart = junkQ ∧ c.uStart = junkU
  initial : c.isClosed = false → c.setInitial = true ∧ find? d ["initial_condition"] ≠ none ∧
    (∃ v, TableVector tables (find? d ["initial_condition", "q"]) v ∧ v.length ≤ car.inputs.length ∧
      Filled v junkQ c.qStart) ∧
    (∃ v, TableVector tables (find? d ["initial_condition", "u"]) v ∧ v.length ≤ car.controls.length ∧
      Filled v junkU c.uStart)
  sigma : Reads (find? d ["sigma"]) T.num (1 / 2) c.sigma
  sensitivity : Reads (find? d ["compute_sensitivity"]) T.bool false c.sensitivity
  direct : c.isDirect = car.isDirect
  controlEntries : ∀ e ∈ entries d "control_variables", ControlEntry T car e
  controls : ∀ j (hj : j < car.controls.length),
    Latest (entries d "control_variables") (typeOf car.controls[j]) (car.types j) (c.types j) ∧
    Latest (entries d "control_variables") (dissipationOf T car.controls[j]) (car.dissipations j)
      (c.dissipations j) ∧
    Latest (entries d "control_variables") (hypermeshOf T car.controls[j]) [] (c.hypermeshes j)
  integral : List.Forall₂ (fun e q => q.1 = e.name ∧
      (∃ b, child? e "lower_bound" = some b ∧ T.num b.text = .ok q.2.1) ∧
      ∃ b, child? e "upper_bound" = some b ∧ T.num b.text = .ok q.2.2)
    (entries d "integral_constraints") c.integral
  boundEntries : ∀ e ∈ entries d "variable_bounds", BoundEntry T car e
  inputBounds : ∀ j (hj : j < car.inputs.length),
    Latest (entries d "variable_bounds") (boundOf T "lower" car.inputs[j]) (car.inputsLb j) (c.inputsLb j) ∧
    Latest (entries d "variable_bounds") (boundOf T "upper" car.inputs[j]) (car.inputsUb j) (c.inputsUb j)
  controlBounds : ∀ j (hj : j < car.controls.length),
    Latest (entries d "variable_bounds") (boundOf T "lower" car.controls[j]) (car.controlsLb j)
      (c.controlsLb j) ∧
    Latest (entries d "variable_bounds") (boundOf T "upper" car.controls[j]) (car.controlsUb j)
      (c.controlsUb j)

theorem configure_known [Field K] {T : Texts K} {car : CarType K} {tables : String → Option (List K)}
    {junkQ junkU : Row K} {d : Node} {c : Config K} (hn : (car.inputs ++ car.controls).Nodup)
    (h : configure T car tables junkQ junkU (.doc d) = .ok c) : Known T car tables junkQ junkU d c := by
  unfold configure at h
  obtain ⟨c1, h1, h⟩ := Res.bind_eq_ok.1 h
  obtain ⟨c2, h2, h⟩ := Res.bind_eq_ok.1 h
  obtain ⟨c3, h3, h⟩ := Res.bind_eq_ok.1 h
  obtain ⟨c4, h4, h⟩ := Res.bind_eq_ok.1 h
  obtain ⟨c5, h5, h⟩ := Res.bind_eq_ok.1 h
  obtain ⟨c6, h6, h⟩ := Res.bind_eq_ok.1 h
  obtain ⟨c7, h7, h⟩ := Res.bind_eq_ok.1 h
  obtain ⟨c8, h8, h⟩ := Res.bind_eq_ok.1 h
  obtain ⟨c9, h9, h⟩ := Res.bind_eq_ok.1 h
  obtain ⟨c10, h10, h⟩ := Res.bind_eq_ok.1 h
  obtain ⟨c11, h11, h⟩ := Res.bind_eq_ok.1 h
  obtain ⟨c12, h12, h⟩ := Res.bind_eq_ok.1 h
  obtain ⟨c13, h13, h⟩ := Res.bind_eq_ok.1 h
  obtain ⟨b1, r1, rfl⟩ := option_reads (get := Config.warmStart) rfl h1
  obtain ⟨b2, r2, rfl⟩ := option_reads (get := Config.saveWarmStart) rfl h2
  obtain ⟨b3, r3, rfl⟩ := option_reads (get := Config.writeXml) rfl h3
  obtain ⟨f, rfl, r4, r4'⟩ := fileOption_ok h4
  obtain ⟨b5, r5, rfl⟩ := option_reads (get := Config.printLevel) rfl h5
  obtain ⟨p, vs, rfl, r6, r6'⟩ := outputOption_ok h6
  obtain ⟨v, rfl, r7, r7'⟩ := speedOption_ok h7
  obtain ⟨b8, r8, rfl⟩ := option_reads (get := Config.isClosed) rfl h8
  obtain ⟨b9, q, u, rfl, r9, r9'⟩ := initialOption_ok h9
  obtain ⟨b10, r10, rfl⟩ := option_reads (get := Config.sigma) rfl h10
  obtain ⟨b11, r11, rfl⟩ := option_reads (get := Config.sensitivity) rfl h11
  obtain ⟨t, di, hy, rfl, r12, r12'⟩ := controlsOption_ok (List.nodup_append.1 hn).2.1 h12
  obtain ⟨qs, rfl, r13⟩ := integralsOption_ok h13
  obtain ⟨ql, qu, ul, uu, rfl, r14, r14', r14''⟩ := boundsOption_ok hn h
  exact ⟨r1, r2, r3, ⟨r4, r4'⟩, r5, r6, r6', r7, r7', r8, r9, r9', r10, r11, rfl, r12, r12', r13, r14, r14', r14''⟩

theorem option_accepts {α C : Type*} {d : Node} {p : String} {read : String → Res α} {put : C → α → C} (c : C)
    (h : Readable (find? d [p]) read) : ∃ c', option d p read put c = .ok c' := by
  unfold option
  rcases ho : find? d [p] with _ | e
  · exact ⟨c, rfl⟩
  · obtain ⟨a, ha⟩ := h e ho
    exact ⟨put c a, by simp only [ha, Res.bind_ok]⟩

theorem reads_readable {α : Type*} {o : Option Node} {read : String → Res α} {x v : α} (h : Reads o read x v) :
    Readable o read := by
  rintro e rfl
  exact ⟨v, h⟩

theorem find?_prefix {d : Node} {a b : String} {e : Node} (h : find? d [a, b] = some e) :
    find? d [a] ≠ none := by
  unfold find? at *
  by_cases hd : d.name = "options"
  · rw [if_pos hd] at h ⊢
    unfold descend at *
    rcases hc : child? d a with _ | x
    · rw [hc] at h
      exact absurd h (by simp)
    · simp [descend]
  · rw [if_neg hd] at h
    exact absurd h (by simp)

theorem copyInto_of_le {n : Nat} {v : List K} (a : Row K) (h : v.length ≤ n) :
    copyInto n v a = .ok fun i => v.getD i (a i) := if_pos h

theorem configure_accepts [Field K] {T : Texts K} {car : CarType K} {tables : String → Option (List K)}
    (junkQ junkU : Row K) {d : Node} (hn : (car.inputs ++ car.controls).Nodup) :
    (∃ c, configure T car tables junkQ junkU (.doc d) = .ok c) ↔ Acceptable T car tables d := by
  constructor
  · rintro ⟨c, h⟩
    have k := configure_known hn h
    refine ⟨?_, reads_readable k.print, reads_readable k.sigma, ?_, ?_, ?_, ?_, k.controlEntries, ?_,
      k.boundEntries⟩
    · intro p hp
      simp only [List.mem_cons, List.not_mem_nil, or_false] at hp
      rcases hp with rfl | rfl | rfl | rfl | rfl
      · exact reads_readable k.warm
      · exact reads_readable k.save
      · exact reads_readable k.write
      · exact reads_readable k.closed
      · exact reads_readable k.sensitivity
    · intro e he ht
      have hw := k.write
      rw [he] at hw
      have hw : c.writeXml = true := (Res.ok.inj (hw.symm.trans ht))
      obtain ⟨e', he', -⟩ := k.file.1 hw
      simp [he']
    · intro h0
      obtain ⟨⟨e, he, -⟩, -⟩ := k.output h0
      simp [he]
    · intro h0
      obtain ⟨e, he, hx⟩ := k.speed h0
      exact ⟨e, c.speed, he, hx⟩
    · intro e he ht
      have hw := k.closed
      rw [he] at hw
      have hw : c.isClosed = false := (Res.ok.inj (hw.symm.trans ht))
      obtain ⟨-, -, ⟨v, h1, h2, -⟩, ⟨u, h3, h4, -⟩⟩ := k.initial hw
      exact ⟨⟨v, h1, h2⟩, ⟨u, h3, h4⟩⟩
    · intro e he
      have : ∀ {l : List Node} {qs : List (String × K × K)}, List.Forall₂ (fun (e : Node) (q : String × K × K) =>
          q.1 = e.name ∧ (∃ b, child? e "lower_bound" = some b ∧ T.num b.text = .ok q.2.1) ∧
          ∃ b, child? e "upper_bound" = some b ∧ T.num b.text = .ok q.2.2) l qs → e ∈ l → IntegralEntry T e := by
        intro l qs hq
        induction hq with
        | nil => intro h; simp at h
        | cons h _ ih =>
          intro hm
          rcases List.mem_cons.1 hm with rfl | hm
          · obtain ⟨-, ⟨b, h1, h2⟩, ⟨b', h3, h4⟩⟩ := h
            exact ⟨⟨b, _, h1, h2⟩, ⟨b', _, h3, h4⟩⟩
          · exact ih hm
      exact this k.integral he
  · intro A
    obtain ⟨c1, h1⟩ := option_accepts (put := fun (c : Config K) b => { c with warmStart := b })
      (defaults car junkQ junkU) (A.flags "warm_start" (by simp))
    obtain ⟨b1, -, rfl⟩ := option_reads (get := Config.warmStart) rfl h1
    obtain ⟨c2, h2⟩ := option_accepts (put := fun (c : Config K) b => { c with saveWarmStart := b })
      { defaults car junkQ junkU with warmStart := b1 } (A.flags "save_warm_start" (by simp))
    obtain ⟨b2, -, rfl⟩ := option_reads (get := Config.saveWarmStart) rfl h2
    obtain ⟨c3, h3⟩ := option_accepts (put := fun (c : Config K) b => { c with writeXml := b })
      { defaults car junkQ junkU with warmStart := b1, saveWarmStart := b2 } (A.flags "write_xml" (by simp))
    obtain ⟨b3, r3, rfl⟩ := option_reads (get := Config.writeXml) rfl h3
    obtain ⟨c4, h4⟩ : ∃ c', fileOption d { defaults car junkQ junkU with
        warmStart := b1, saveWarmStart := b2, writeXml := b3 } = .ok c' := by
      unfold fileOption
      rcases b3 with _ | _
      · exact ⟨_, rfl⟩
      · have hne : find? d ["xml_file_name"] ≠ none := by
          unfold Reads at r3
          rcases he : find? d ["write_xml"] with _ | e
          · rw [he] at r3
            exact absurd r3 (by simp [defaults])
          · rw [he] at r3
            exact A.file e he r3
        obtain ⟨e, he⟩ := Option.ne_none_iff_exists'.1 hne
        exact ⟨_, by rw [he]; rfl⟩
    obtain ⟨c5, h5⟩ := option_accepts (put := fun (c : Config K) b => { c with printLevel := b }) c4 A.print
    obtain ⟨c6, h6⟩ : ∃ c', outputOption T car d c5 = .ok c' := by
      unfold outputOption
      rcases ho : find? d ["output_variables"] with _ | o
      · exact ⟨_, rfl⟩
      · obtain ⟨e, he⟩ := Option.ne_none_iff_exists'.1 (A.pre (by simp [ho]))
        rw [he]
        rcases hv : find? d ["output_variables", "variables"] with _ | v
        · exact ⟨_, rfl⟩
        · exact ⟨_, rfl⟩
    obtain ⟨c7, h7⟩ : ∃ c', speedOption T d c6 = .ok c' := by
      unfold speedOption
      rcases ho : find? d ["steady_state_speed"] with _ | o
      · exact ⟨_, rfl⟩
      · obtain ⟨e, x, he, hx⟩ := A.speed (by simp [ho])
        exact ⟨{ c6 with speed := x }, by simp only [he, orThrow, Res.bind_ok, hx]⟩
    have hcl : c7.isClosed = true := by
      obtain ⟨_, rfl, -, -⟩ := fileOption_ok h4
      obtain ⟨_, -, rfl⟩ := option_reads (get := Config.printLevel) rfl h5
      obtain ⟨_, _, rfl, -, -⟩ := outputOption_ok h6
      obtain ⟨_, rfl, -, -⟩ := speedOption_ok h7
      rfl
    obtain ⟨c8, h8⟩ := option_accepts (put := fun (c : Config K) b => { c with isClosed := b }) c7
      (A.flags "closed_simulation" (by simp))
    obtain ⟨b8, r8, rfl⟩ := option_reads (get := Config.isClosed) rfl h8
    obtain ⟨c9, h9⟩ : ∃ c', initialOption car tables d { c7 with isClosed := b8 } = .ok c' := by
      unfold initialOption
      rcases b8 with _ | _
      · have hi : (∃ v, TableVector tables (find? d ["initial_condition", "q"]) v ∧
              v.length ≤ car.inputs.length) ∧
            (∃ v, TableVector tables (find? d ["initial_condition", "u"]) v ∧
              v.length ≤ car.controls.length) := by
          unfold Reads at r8
          rcases he : find? d ["closed_simulation"] with _ | e
          · rw [he] at r8
            exact absurd (r8.trans hcl) (by simp)
          · rw [he] at r8
            exact A.initial e he r8
        obtain ⟨⟨q, hq, hql⟩, ⟨u, hu, hul⟩⟩ := hi
        obtain ⟨e, he⟩ := Option.ne_none_iff_exists'.1 (by
          obtain ⟨e, _, he, -⟩ := hq
          exact find?_prefix he)
        rw [if_neg (by simp), he]
        simp only [fromTable_ok.2 hq, fromTable_ok.2 hu, Res.bind_ok, copyInto_of_le _ hql,
          copyInto_of_le _ hul]
        exact ⟨_, rfl⟩
      · exact ⟨_, rfl⟩
    obtain ⟨c10, h10⟩ := option_accepts (put := fun (c : Config K) b => { c with sigma := b }) c9 A.sigma
    obtain ⟨c11, h11⟩ := option_accepts (put := fun (c : Config K) b => { c with sensitivity := b }) c10
      (A.flags "compute_sensitivity" (by simp))
    obtain ⟨c12, h12⟩ : ∃ c', controlsOption T car d c11 = .ok c' := by
      obtain ⟨c', h⟩ := (loop_ok_iff (controlOption_accepts (T := T) (car := car)) _ c11).2 A.controls
      refine ⟨c', ?_⟩
      unfold entries at h
      unfold controlsOption
      rcases ho : find? d ["control_variables"] with _ | o <;> rw [ho] at h <;> exact h
    obtain ⟨c13, h13⟩ : ∃ c', integralsOption T d c12 = .ok c' := by
      obtain ⟨c', h⟩ := (loop_ok_iff (integralOption_accepts (T := T)) _ c12).2 A.integral
      refine ⟨c', ?_⟩
      unfold entries at h
      unfold integralsOption
      rcases ho : find? d ["integral_constraints"] with _ | o <;> rw [ho] at h <;> exact h
    obtain ⟨c14, h14⟩ : ∃ c', boundsOption T car d c13 = .ok c' := by
      obtain ⟨c', h⟩ := (loop_ok_iff (variableOption_accepts (T := T) (car := car)) _ c13).2 A.bounds
      refine ⟨c', ?_⟩
      unfold entries at h
      unfold boundsOption
      rcases ho : find? d ["variable_bounds"] with _ | o <;> rw [ho] at h <;> exact h
    refine ⟨c14, ?_⟩
    unfold configure
    simp only [h1, h2, h3, h4, h5, h6, h7, h8, h9, h10, h11, h12, h13, h14, Res.bind_ok]

end Verif.LapOptions
