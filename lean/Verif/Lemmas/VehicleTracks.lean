import Verif.Lemmas.Propagation

/-! Lemmas for C214, C215: what a command does to the tables of vehicles. -/

set_option autoImplicit false

namespace Verif.Propagation

open Verif.Registry

variable {Kart F1 Track K : Type}

theorem saveLap_tables (r : Reg Kart F1 Track K) (job : LapJob K) :
    (saveLap r job).1.kart = r.kart ∧ (saveLap r job).1.f1 = r.f1 ∧ (saveLap r job).1.track = r.track := by
  rcases saveLap_adds r job with h | ⟨-, h⟩
  · rw [h]; exact ⟨rfl, rfl, rfl⟩
  · exact ⟨h.kart, h.f1, h.track⟩

theorem runCircuit_tables (r : Reg Kart F1 Track K) (job : CircuitJob Track K) :
    (runCircuit r job).1.kart = r.kart ∧ (runCircuit r job).1.f1 = r.f1 := by
  unfold runCircuit
  split
  · exact ⟨rfl, rfl⟩
  · exact ⟨rfl, rfl⟩
  · dsimp only
    split
    · exact ⟨rfl, rfl⟩
    · rename_i r1 hr1
      have h1 : r1.kart = r.kart ∧ r1.f1 = r.f1 := by
        split at hr1
        · cases hr1; exact ⟨rfl, rfl⟩
        · split at hr1
          · simp at hr1
          · cases hr1; exact ⟨rfl, rfl⟩
      split
      · exact h1
      · exact h1
      · split
        · exact h1
        · rename_i pre _
          have := saveOutputs_adds pre job.data circuitOutputs r1 (fun _ => True) (fun _ _ _ => trivial)
          exact ⟨this.kart.trans h1.1, this.f1.trans h1.2⟩

/-! ### All vehicles -/

/-- A condition on all the elements of a table. -/
def All {V : Type} (P : V → Prop) (t : Table V) : Prop := ∀ n v, t n = some v → P v

section
variable {V : Type} {P : V → Prop} {t : Table V}

theorem All.put (h : All P t) {k : Name} {x : V} (hx : P x) : All P (put t k x) := by
  intro n v hv
  unfold Registry.put at hv
  split at hv
  · split at hv
    · rename_i hk
      cases hv
      exact h _ _ hk
    · cases hv; exact hx
  · exact h _ _ hv

theorem All.overwrite (h : All P t) {k : Name} {x : V} (hx : P x) : All P (overwrite t k x) := by
  intro n v hv
  unfold Registry.overwrite at hv
  split at hv
  · cases hv; exact hx
  · exact h _ _ hv

theorem All.drop (h : All P t) {k : Name} : All P (drop t k) := by
  intro n v hv
  unfold Registry.drop at hv
  split at hv
  · cases hv
  · exact h _ _ hv

theorem All.dropIf (h : All P t) {p : Name → Bool} : All P (dropIf t p) := by
  intro n v hv
  unfold Registry.dropIf at hv
  split at hv
  · cases hv
  · exact h _ _ hv

end

/-- Both copies are on the same track. -/
def Same {C : Type} (v : Mounted C Track) : Prop := v.ad = v.scalar

theorem step_same (lib : Name → Option (Name → Bool)) (c : Call Kart F1 Track K) (r : Tables Kart F1 Track K)
    (h : SameTracks r) : SameTracks (step lib c.op r).1 := by
  obtain ⟨hk, hf⟩ : All Same r.kart ∧ All Same r.f1 := h
  show All Same (step lib c.op r).1.kart ∧ All Same (step lib c.op r).1.f1
  cases c with
  | createKart n c =>
    simp only [Call.op, step]
    split
    · exact ⟨hk, hf⟩
    · exact ⟨hk.put rfl, hf⟩
  | createF1 n c =>
    simp only [Call.op, step]
    split
    · exact ⟨hk, hf⟩
    · exact ⟨hk, hf.put rfl⟩
  | createTrack n t =>
    simp only [Call.op, step]
    split <;> exact ⟨hk, hf⟩
  | copy a b =>
    simp only [Call.op, step]
    split
    · exact ⟨hk, hf⟩
    · split
      · rename_i h1; exact ⟨hk.put (hk _ _ h1), hf⟩
      · rename_i _ h1; exact ⟨hk, hf.put (hf _ _ h1)⟩
      all_goals exact ⟨hk, hf⟩
  | move a b =>
    simp only [Call.op, step]
    split
    · exact ⟨hk, hf⟩
    · split
      · rename_i h1; exact ⟨(hk.put (hk _ _ h1)).drop, hf⟩
      · rename_i _ h1; exact ⟨hk, (hf.put (hf _ _ h1)).drop⟩
      all_goals exact ⟨hk, hf⟩
  | delete p =>
    simp only [Call.op, step]
    split
    · exact ⟨hk, hf⟩
    · exact ⟨hk.dropIf, hf.dropIf⟩
  | setParameter n w =>
    simp only [Call.op, step]
    split
    · exact ⟨hk, hf⟩
    · exact ⟨hk, hf.overwrite (hf n _ ‹r.f1 n = some _› :)⟩
  | declareParameter n wf wk =>
    simp only [Call.op, step]
    split
    · exact ⟨hk, hf.overwrite (hf n _ ‹r.f1 n = some _› :)⟩
    · exact ⟨hk.overwrite (hk n _ ‹r.kart n = some _› :), hf⟩
    · exact ⟨hk, hf⟩
  | getOutput n k f =>
    simp only [Call.op, step]
    split
    · exact ⟨hk.overwrite (hk n _ ‹r.kart n = some _› :), hf⟩
    · exact ⟨hk, hf.overwrite (hf n _ ‹r.f1 n = some _› :)⟩
    · exact ⟨hk, hf⟩
  | onPlane n k f =>
    simp only [Call.op, step]
    split
    · exact ⟨hk.overwrite (hk n _ ‹r.kart n = some _› :), hf⟩
    · exact ⟨hk, hf.overwrite (hf n _ ‹r.f1 n = some _› :)⟩
    · exact ⟨hk, hf⟩
  | propagate n t k f =>
    simp only [Call.op, step]
    split
    · split
      · exact ⟨hk, hf⟩
      · exact ⟨hk.overwrite rfl, hf⟩
    · split
      · exact ⟨hk, hf⟩
      · exact ⟨hk, hf.overwrite rfl⟩
    · exact ⟨hk, hf⟩
  | changeTrack n t =>
    simp only [Call.op, step]
    split
    · split
      · exact ⟨hk, hf⟩
      · exact ⟨hk.overwrite rfl, hf⟩
    · split
      · exact ⟨hk, hf⟩
      · exact ⟨hk, hf.overwrite rfl⟩
    · exact ⟨hk, hf⟩
  | setTrackLimit t w =>
    simp only [Call.op, step]
    split <;> exact ⟨hk, hf⟩
  | optimalLaptime n t o k f job =>
    simp only [Call.op, step]
    split
    · split
      · exact ⟨hk, hf⟩
      · rw [(saveLap_tables _ job).1, (saveLap_tables _ job).2.1]
        refine ⟨hk.overwrite ?_, hf⟩
        split
        · rfl
        · exact hk n _ ‹_›
    · split
      · exact ⟨hk, hf⟩
      · rw [(saveLap_tables _ job).1, (saveLap_tables _ job).2.1]
        refine ⟨hk, hf.overwrite ?_⟩
        split
        · rfl
        · exact hf n _ ‹_›
    · exact ⟨hk, hf⟩
  | circuitPreprocessor job =>
    simp only [Call.op, step]
    rw [(runCircuit_tables _ job).1, (runCircuit_tables _ job).2]
    exact ⟨hk, hf⟩
  | createVector n m d =>
    simp only [Call.op, step]
    split
    · exact ⟨hk, hf⟩
    · split <;> exact ⟨hk, hf⟩
  | createScalar n x =>
    simp only [Call.op, step]
    split <;> exact ⟨hk, hf⟩

/-! ### One vehicle -/

/-- Both copies of a vehicle are on track `t`. -/
def On {C : Type} (t : Track) (v : Mounted C Track) : Prop := v.ad = some t ∧ v.scalar = some t

/-- What `IsOn` says of the two entries with the name. -/
def OnAt (t : Track) : Option (Mounted Kart Track) → Option (Mounted F1 Track) → Prop
  | some v, _ => On t v
  | none, some v => On t v
  | none, none => False

theorem isOn_iff {r : Tables Kart F1 Track K} {n : Name} {t : Track} : IsOn r n t ↔ OnAt t (r.kart n) (r.f1 n) := by
  unfold IsOn
  cases r.kart n <;> cases r.f1 n <;> simp [OnAt, On]

theorem IsOn.fresh {r : Tables Kart F1 Track K} {n k : Name} {t : Track} (h : IsOn r n t) (hk : ¬ taken r k = true) :
    n ≠ k := by
  rintro rfl
  apply hk
  rcases h with ⟨v, h, -⟩ | ⟨-, v, h, -⟩ <;> simp [taken, h]

theorem overwrite_self {V : Type} (t : Table V) (k : Name) (v : V) : overwrite t k v k = some v := if_pos rfl

theorem overwrite_ne {V : Type} (t : Table V) {k n : Name} (v : V) (h : n ≠ k) : overwrite t k v n = t n := if_neg h

theorem drop_ne {V : Type} (t : Table V) {k n : Name} (h : n ≠ k) : drop t k n = t n := if_neg h

section
variable {r : Tables Kart F1 Track K} {n : Name} {t : Track}

/-- The entries with other names do not matter. -/
theorem isOn_congr {r' : Tables Kart F1 Track K} (h : IsOn r n t) (h1 : r'.kart n = r.kart n) (h2 : r'.f1 n = r.f1 n) :
    IsOn r' n t := by
  rw [isOn_iff] at h ⊢
  rw [h1, h2]
  exact h

/-- A kart is changed, but its tracks are not. -/
theorem isOn_kart {r' : Tables Kart F1 Track K} (h : IsOn r n t) {k : Name} {v v' : Mounted Kart Track}
    (hv : r.kart k = some v) (h1 : r'.kart = overwrite r.kart k v') (h2 : r'.f1 = r.f1)
    (ha : v'.ad = v.ad) (hs : v'.scalar = v.scalar) : IsOn r' n t := by
  by_cases e : n = k
  · subst e
    rw [isOn_iff] at h ⊢
    rw [hv] at h
    rw [h1, overwrite_self]
    exact ⟨ha.trans h.1, hs.trans h.2⟩
  · exact isOn_congr h (by rw [h1, overwrite_ne _ _ e]) (by rw [h2])

/-- An F1 car is changed, but its tracks are not. -/
theorem isOn_f1 {r' : Tables Kart F1 Track K} (h : IsOn r n t) {k : Name} {v v' : Mounted F1 Track}
    (hv : r.f1 k = some v) (h1 : r'.kart = r.kart) (h2 : r'.f1 = overwrite r.f1 k v')
    (ha : v'.ad = v.ad) (hs : v'.scalar = v.scalar) : IsOn r' n t := by
  by_cases e : n = k
  · subst e
    rw [isOn_iff] at h ⊢
    rw [hv] at h
    rw [h1, h2, overwrite_self]
    cases hk : r.kart n with
    | some x => rw [hk] at h; exact h
    | none => rw [hk] at h; exact ⟨ha.trans h.1, hs.trans h.2⟩
  · exact isOn_congr h (by rw [h1]) (by rw [h2, overwrite_ne _ _ e])

end

theorem step_isOn (lib : Name → Option (Name → Bool)) (c : Call Kart F1 Track K) (r : Tables Kart F1 Track K) (n : Name)
    (t : Track) (h : IsOn r n t) (hc : ¬ Takes lib n c) : IsOn (step lib c.op r).1 n t := by
  cases c with
  | createKart m c =>
    simp only [Call.op, step]
    split
    · exact h
    · rename_i hk; exact isOn_congr h (put_ne _ _ (h.fresh hk)) rfl
  | createF1 m c =>
    simp only [Call.op, step]
    split
    · exact h
    · rename_i hk; exact isOn_congr h rfl (put_ne _ _ (h.fresh hk))
  | createTrack m t =>
    simp only [Call.op, step]
    split
    · exact h
    · exact isOn_congr h rfl rfl
  | copy a b =>
    simp only [Call.op, step]
    split
    · exact h
    · rename_i hk
      split
      · exact isOn_congr h (put_ne _ _ (h.fresh hk)) rfl
      · exact isOn_congr h rfl (put_ne _ _ (h.fresh hk))
      all_goals exact isOn_congr h rfl rfl
  | move a b =>
    have ha : n ≠ a := fun e => hc e.symm
    simp only [Call.op, step]
    split
    · exact h
    · rename_i hk
      split
      · exact isOn_congr h ((drop_ne _ ha).trans (put_ne _ _ (h.fresh hk))) rfl
      · exact isOn_congr h rfl ((drop_ne _ ha).trans (put_ne _ _ (h.fresh hk)))
      all_goals exact isOn_congr h rfl rfl
  | delete p =>
    simp only [Call.op, step]
    split
    · exact h
    · rename_i sel hs
      have : sel n = false := by
        by_contra e
        exact hc ⟨sel, hs, by simpa using e⟩
      exact isOn_congr h (by simp [dropIf, this]) (by simp [dropIf, this])
  | setParameter m w =>
    simp only [Call.op, step]
    split
    · exact h
    · rename_i v h1; exact isOn_f1 h h1 rfl rfl rfl rfl
  | declareParameter m wf wk =>
    simp only [Call.op, step]
    split
    · rename_i v _ h1; exact isOn_f1 h h1 rfl rfl rfl rfl
    · rename_i v _ h1; exact isOn_kart h h1 rfl rfl rfl rfl
    · exact h
  | getOutput m k f =>
    simp only [Call.op, step]
    split
    · rename_i v _ h1; exact isOn_kart h h1 rfl rfl rfl rfl
    · rename_i v _ h1; exact isOn_f1 h h1 rfl rfl rfl rfl
    · exact h
  | onPlane m k f =>
    simp only [Call.op, step]
    split
    · rename_i v _ h1; exact isOn_kart h h1 rfl rfl rfl rfl
    · rename_i v _ h1; exact isOn_f1 h h1 rfl rfl rfl rfl
    · exact h
  | propagate m t k f =>
    have hm : n ≠ m := fun e => hc e.symm
    simp only [Call.op, step]
    split
    · split
      · exact h
      · exact isOn_congr h (overwrite_ne _ _ hm) rfl
    · split
      · exact h
      · exact isOn_congr h rfl (overwrite_ne _ _ hm)
    · exact h
  | changeTrack m t =>
    have hm : n ≠ m := fun e => hc e.symm
    simp only [Call.op, step]
    split
    · split
      · exact h
      · exact isOn_congr h (overwrite_ne _ _ hm) rfl
    · split
      · exact h
      · exact isOn_congr h rfl (overwrite_ne _ _ hm)
    · exact h
  | setTrackLimit m w =>
    simp only [Call.op, step]
    split
    · exact h
    · exact isOn_congr h rfl rfl
  | optimalLaptime m t o k f job =>
    have hm : n ≠ m := fun e => hc e.symm
    simp only [Call.op, step]
    split
    · split
      · exact h
      · exact isOn_congr h (by rw [(saveLap_tables _ job).1]; exact overwrite_ne _ _ hm)
          (by rw [(saveLap_tables _ job).2.1])
    · split
      · exact h
      · exact isOn_congr h (by rw [(saveLap_tables _ job).1])
          (by rw [(saveLap_tables _ job).2.1]; exact overwrite_ne _ _ hm)
    · exact h
  | circuitPreprocessor job =>
    simp only [Call.op, step]
    exact isOn_congr h (by rw [(runCircuit_tables _ job).1]) (by rw [(runCircuit_tables _ job).2])
  | createVector m l d =>
    simp only [Call.op, step]
    split
    · exact h
    · split
      · exact h
      · exact isOn_congr h rfl rfl
  | createScalar m x =>
    simp only [Call.op, step]
    split
    · exact h
    · exact isOn_congr h rfl rfl

theorem step_puts (lib : Name → Option (Name → Bool)) (c : Call Kart F1 Track K) (r : Tables Kart F1 Track K)
    (n track : Name) (t : Track) (hc : Puts n track c) (ht : r.track track = some t)
    (hn : r.kart n ≠ none ∨ r.f1 n ≠ none) : IsOn (step lib c.op r).1 n t := by
  rw [isOn_iff]
  cases c with
  | changeTrack m tn =>
    obtain ⟨rfl, rfl⟩ := hc
    simp only [Call.op, step, ht]
    cases hk : r.kart m with
    | some v => simp only [overwrite_self]; exact ⟨rfl, rfl⟩
    | none =>
      cases hf : r.f1 m with
      | some v => simp only [overwrite_self, hk]; exact ⟨rfl, rfl⟩
      | none => rcases hn with hn | hn <;> contradiction
  | propagate m tn k f =>
    obtain ⟨rfl, rfl⟩ := hc
    simp only [Call.op, step, ht]
    cases hk : r.kart m with
    | some v => simp only [overwrite_self]; exact ⟨rfl, rfl⟩
    | none =>
      cases hf : r.f1 m with
      | some v => simp only [overwrite_self, hk]; exact ⟨rfl, rfl⟩
      | none => rcases hn with hn | hn <;> contradiction
  | optimalLaptime m tn o k f job =>
    obtain ⟨rfl, rfl, rfl⟩ := hc
    simp only [Call.op, step, ht]
    cases hk : r.kart m with
    | some v => simp only [(saveLap_tables _ job).1, overwrite_self]; exact ⟨rfl, rfl⟩
    | none =>
      cases hf : r.f1 m with
      | some v =>
        simp only [(saveLap_tables _ job).1, (saveLap_tables _ job).2.1, overwrite_self, hk]
        exact ⟨rfl, rfl⟩
      | none => rcases hn with hn | hn <;> contradiction
  | _ => exact absurd hc id

end Verif.Propagation
