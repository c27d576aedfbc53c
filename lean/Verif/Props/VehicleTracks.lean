import Verif.Lemmas.VehicleTracks
import Verif.Lemmas.Pattern

/-! Properties C214 and C215: the tracks of the vehicles in the tables of the library. -/

set_option autoImplicit false

namespace Verif.Propagation

open Verif.Registry

variable {Kart F1 Track K : Type}

/-! ## C214: the two copies of a vehicle stay on the same track -/

/-- C214: after any calls, the copy of a vehicle that computes laps and the copy that gives outputs are on the same
track. -/
theorem C214_same (lib : Name → Option (Name → Bool)) (calls : List (Call Kart F1 Track K)) (r r' : Tables Kart F1 Track K)
    (h : SameTracks r) (hr : run lib (calls.map Call.op) r = some r') : SameTracks r' := by
  induction calls generalizing r with
  | nil =>
    obtain rfl := Option.some.inj hr
    exact h
  | cons c calls ih =>
    simp only [List.map_cons, run] at hr
    split at hr
    · cases hr
    · exact ih _ (step_same lib c r h) hr

theorem mounts_kart {r : Tables Kart F1 Track K} {n : Name} {v : Mounted Kart Track} (hv : r.kart n = some v) (t : Track) :
    Mounts r { r with kart := overwrite r.kart n (v.change t) } n t := by
  refine ⟨.inl ⟨_, overwrite_self _ _ _, rfl, rfl⟩, fun m => ?_, fun _ => rfl, fun m hm => ⟨overwrite_ne _ _ hm, rfl⟩,
    rfl, rfl, rfl⟩
  by_cases e : m = n
  · subst e
    simp only [overwrite_self, hv, Option.map_some]
    rfl
  · simp only [overwrite_ne _ _ e]

theorem mounts_f1 {r : Tables Kart F1 Track K} {n : Name} {v : Mounted F1 Track} (hk : r.kart n = none)
    (hv : r.f1 n = some v) (t : Track) : Mounts r { r with f1 := overwrite r.f1 n (v.change t) } n t := by
  refine ⟨.inr ⟨hk, _, overwrite_self _ _ _, rfl, rfl⟩, fun _ => rfl, fun m => ?_, fun m hm => ⟨rfl, overwrite_ne _ _ hm⟩,
    rfl, rfl, rfl⟩
  by_cases e : m = n
  · subst e
    simp only [overwrite_self, hv, Option.map_some]
    rfl
  · simp only [overwrite_ne _ _ e]

theorem overwrite_same {V : Type} {t : Table V} {n : Name} {v : V} (h : t n = some v) : overwrite t n v = t := by
  funext m
  by_cases e : m = n
  · subst e; rw [overwrite_self, h]
  · exact overwrite_ne _ _ e

/-- C214: `vehicle_change_track` puts the vehicle on the track and changes nothing else; without the track it fails and
changes nothing. -/
theorem C214_change (lib : Name → Option (Name → Bool)) (r : Tables Kart F1 Track K) (n track : Name)
    (hn : r.kart n ≠ none ∨ r.f1 n ≠ none) :
    let after := step lib (Call.changeTrack n track : Call Kart F1 Track K).op r
    (∀ t, r.track track = some t → Mounts r after.1 n t ∧ after.2 = .ok .unit) ∧
    (r.track track = none → after = (r, .throw)) := by
  intro after
  refine ⟨fun t ht => ?_, fun ht => ?_⟩
  · rcases hk : r.kart n with _ | v
    · rcases hf : r.f1 n with _ | v
      · rcases hn with hn | hn <;> contradiction
      · have e : after = ({ r with f1 := overwrite r.f1 n (v.change t) }, .ok .unit) := by
          simp only [after, Call.op, step, hk, hf, ht, done]
        rw [e]
        exact ⟨mounts_f1 hk hf t, rfl⟩
    · have e : after = ({ r with kart := overwrite r.kart n (v.change t) }, .ok .unit) := by
        simp only [after, Call.op, step, hk, ht, done]
      rw [e]
      exact ⟨mounts_kart hk t, rfl⟩
  · rcases hk : r.kart n with _ | v
    · rcases hf : r.f1 n with _ | v
      · rcases hn with hn | hn <;> contradiction
      · simp only [after, Call.op, step, hk, hf, ht]
    · simp only [after, Call.op, step, hk, ht]

/-- C214 fails for the name of the vehicle: `vehicle_change_track` does not report a vehicle that does not exist. -/
theorem C214_false (lib : Name → Option (Name → Bool)) (r : Tables Kart F1 Track K) (n track : Name)
    (hk : r.kart n = none) (hf : r.f1 n = none) :
    step lib (Call.changeTrack n track : Call Kart F1 Track K).op r = (r, .ok .unit) := by
  simp only [Call.op, step, hk, hf]

/-- C214: `propagate_vehicle` along a track puts the vehicle on that track, whether or not the step succeeds, and changes
no table otherwise. -/
theorem C214_propagate (lib : Name → Option (Name → Bool)) (lion : Lion) (how : Movers Kart F1 Track)
    (r : Tables Kart F1 Track K) (a : Step) (mem : Arrays) :
    let after := step lib (a.call lion how mem : Call Kart F1 Track K).op r
    after.2 = done (propagate lion how r a mem).result ∧
    (∀ t, a.useCircuit = true → r.track a.track = some t → r.kart a.name ≠ none ∨ r.f1 a.name ≠ none →
      Mounts r after.1 a.name t) ∧
    (a.useCircuit = false ∨ r.track a.track = none ∨ (r.kart a.name = none ∧ r.f1 a.name = none) → after.1 = r) := by
  intro after
  have hd (x : Res Unit) : (x.map fun _ => (Ret.unit : Ret K)) = done x := by cases x <;> rfl
  cases hc : a.useCircuit with
  | false =>
    rcases hk : r.kart a.name with _ | v
    · rcases hf : r.f1 a.name with _ | v
      · have e : after = (r, .ok .unit) := by
          simp only [after, Step.call, hc, Call.op, step, hk, hf, Bool.false_eq_true, if_false]
        rw [e]
        simp [propagate, hk, hf, done]
      · have e : after = (r, done (propagate lion how r a mem).result) := by
          simp only [after, Step.call, hc, Call.op, step, hk, hf, Bool.false_eq_true, if_false, overwrite_same hf, propagate,
            moved, hd]
        rw [e]
        simp
    · have e : after = (r, done (propagate lion how r a mem).result) := by
        simp only [after, Step.call, hc, Call.op, step, hk, Bool.false_eq_true, if_false, overwrite_same hk, propagate,
          moved, hd]
      rw [e]
      simp
  | true =>
    rcases hk : r.kart a.name with _ | v
    · rcases hf : r.f1 a.name with _ | v
      · have e : after = (r, .ok .unit) := by
          simp only [after, Step.call, hc, Call.op, step, hk, hf, if_true]
        rw [e]
        simp [propagate, hk, hf, done]
      · rcases ht : r.track a.track with _ | t
        · have e : after = (r, .throw) := by simp only [after, Step.call, hc, Call.op, step, hk, hf, ht, if_true]
          rw [e]
          simp [propagate, hk, hf, moved, hc, ht, done]
        · have e : after = ({ r with f1 := overwrite r.f1 a.name (v.change t) }, done (propagate lion how r a mem).result) := by
            simp only [after, Step.call, hc, Call.op, step, hk, hf, ht, if_true, propagate, moved]
          rw [e]
          refine ⟨rfl, fun t' _ h _ => ?_, fun h => by simp at h⟩
          obtain rfl := Option.some.inj h
          exact mounts_f1 hk hf t
    · rcases ht : r.track a.track with _ | t
      · have e : after = (r, .throw) := by simp only [after, Step.call, hc, Call.op, step, hk, ht, if_true]
        rw [e]
        simp [propagate, hk, moved, hc, ht, done]
      · have e : after = ({ r with kart := overwrite r.kart a.name (v.change t) },
            done (propagate lion how r a mem).result) := by
          simp only [after, Step.call, hc, Call.op, step, hk, ht, if_true, propagate, moved]
        rw [e]
        refine ⟨rfl, fun t' _ h _ => ?_, fun h => by simp at h⟩
        obtain rfl := Option.some.inj h
        exact mounts_kart hk t

/-! ## C215: a vehicle stays on its track -/

theorem run_isOn (lib : Name → Option (Name → Bool)) (calls : List (Call Kart F1 Track K)) (r r' : Tables Kart F1 Track K)
    (n : Name) (t : Track) (h : IsOn r n t) (hc : ∀ c ∈ calls, ¬ Takes lib n c)
    (hr : run lib (calls.map Call.op) r = some r') : IsOn r' n t := by
  induction calls generalizing r with
  | nil =>
    obtain rfl := Option.some.inj hr
    exact h
  | cons c calls ih =>
    simp only [List.map_cons, run] at hr
    split at hr
    · cases hr
    · exact ih _ (step_isOn lib c r n t h (hc c (by simp))) (fun c' hc' => hc c' (by simp [hc'])) hr

/-- C215: a vehicle put on a track stays on it, as the track was at that moment, until it is put on another, renamed or
deleted: whatever the other calls do, to the track as well. -/
theorem C215_stays (lib : Name → Option (Name → Bool)) (c : Call Kart F1 Track K) (calls : List (Call Kart F1 Track K))
    (r r' : Tables Kart F1 Track K) (n track : Name) (t : Track) (hc : Puts n track c) (ht : r.track track = some t)
    (hn : r.kart n ≠ none ∨ r.f1 n ≠ none) (hcalls : ∀ c ∈ calls, ¬ Takes lib n c)
    (hr : run lib ((c :: calls).map Call.op) r = some r') : IsOn r' n t := by
  simp only [List.map_cons, run] at hr
  split at hr
  · cases hr
  · exact run_isOn lib calls _ r' n t (step_puts lib c r n track t hc ht hn) hcalls hr

/-- C215: and `vehicle_get_output` computes on that track. -/
theorem C215_output (lib : Name → Option (Name → Bool)) (r : Tables Kart F1 Track K) (n : Name) (t : Track)
    (h : IsOn r n t) (kart : Kart → Option Track → Kart × Res K) (f1 : F1 → Option Track → F1 × Res K) :
    let got := (step lib (Call.getOutput n kart f1).op r).2
    (∃ v, r.kart n = some v ∧ got = (kart v.car (some t)).2.map .num) ∨
    (r.kart n = none ∧ ∃ v, r.f1 n = some v ∧ got = (f1 v.car (some t)).2.map .num) := by
  intro got
  rcases h with ⟨v, hv, -, hs⟩ | ⟨hk, v, hv, -, hs⟩
  · refine .inl ⟨v, hv, ?_⟩
    simp only [got, Call.op, step, hv, output, hs]
  · refine .inr ⟨hk, v, hv, ?_⟩
    simp only [got, Call.op, step, hk, hv, output, hs]

/-! ### Examples -/

/-- A new car and a new track. -/
def exStart : Tables Nat Nat Nat Nat :=
  { kart := fun _ => none, f1 := fun n => if n = "car".toList then some (.new 7) else none,
    track := fun n => if n = "track".toList then some 5 else none, scalar := fun _ => none, vector := fun _ => none }

/-- The car is put on the track; the limits of the track are corrected; the track is deleted. -/
def exCalls : List (Call Nat Nat Nat Nat) :=
  [.setTrackLimit "track".toList (fun t => (t + 1, .ok ())), .delete "track".toList]

example : ∃ r', run (fun _ => none) ((.changeTrack "car".toList "track".toList :: exCalls).map Call.op) exStart = some r' ∧
    SameTracks r' ∧ IsOn r' "car".toList 5 ∧
    (step (fun _ => none) (Call.getOutput "car".toList (fun c t => (c, .ok (t.getD 0)))
      (fun c t => (c, .ok (t.getD 0)))).op r').2 = .ok (.num 5) := by
  have hsel : Pattern.selects (fun _ => none) "track".toList
      = some (Pattern.fullMatch (Pattern.globAtoms "track".toList)) :=
    Pattern.selects_ordinary _ (by
      intro c hc
      simp at hc
      rcases hc with rfl | rfl | rfl | rfl | rfl <;> simp [Ordinary])
  refine ⟨_, rfl, ?_⟩
  have hon : ∀ {r}, IsOn r "car".toList 5 → _ ∧ _ := fun h => ⟨h, C215_output (K := Nat) (fun _ => none) _ _ _ h
    (fun (c : Nat) (t : Option Nat) => (c, .ok (t.getD 0))) (fun (c : Nat) (t : Option Nat) => (c, .ok (t.getD 0)))⟩
  refine ⟨?_, And.imp_right (fun h => ?_) (hon ?_)⟩
  · refine C214_same (fun _ => none) (.changeTrack "car".toList "track".toList :: exCalls) exStart _
      ⟨fun _ _ h => ?_, fun _ v h => ?_⟩ rfl
    · simp [exStart] at h
    · simp only [exStart] at h
      split at h
      · cases h; rfl
      · cases h
  · rcases h with ⟨_, _, h⟩ | ⟨_, _, _, h⟩ <;> exact h
  · refine C215_stays (fun _ => none) (.changeTrack "car".toList "track".toList) exCalls exStart _ "car".toList
      "track".toList 5 ⟨rfl, rfl⟩ rfl (Or.inr (by simp [exStart])) ?_ rfl
    intro c hc
    simp only [exCalls, List.mem_cons, List.not_mem_nil, or_false] at hc
    rcases hc with rfl | rfl
    · exact id
    · rintro ⟨sel, h1, h2⟩
      rw [hsel] at h1
      cases h1
      simp [Pattern.globAtoms, Pattern.fullMatch] at h2

/-- The same car by `C214_change`, and a track that does not exist. -/
example : Mounts exStart (step (fun _ => none) (Call.changeTrack "car".toList "track".toList : Call Nat Nat Nat Nat).op
      exStart).1 "car".toList 5 ∧
    step (fun _ => none) (Call.changeTrack "car".toList "road".toList : Call Nat Nat Nat Nat).op exStart =
      (exStart, .throw) :=
  ⟨((C214_change (fun _ => none) exStart "car".toList "track".toList (Or.inr (by simp [exStart]))).1 5 rfl).1,
    (C214_change (fun _ => none) exStart "car".toList "road".toList (Or.inr (by simp [exStart]))).2 rfl⟩

/-- A step that fails: the car is on the track nevertheless. -/
example (how : Movers Nat Nat Nat) (mem : Arrays) (texts : LapOptions.Texts ℝ) :
    let lion : Lion := ⟨fun _ _ _ _ _ _ _ => .throw, ⟨1 / 2, 10, 0, 1⟩, fun _ => .throw, texts⟩
    Mounts exStart (step (fun _ => none) ((⟨"car".toList, "track".toList, 0, 10, true, ""⟩ : Step).call lion how mem :
      Call Nat Nat Nat Nat).op exStart).1 "car".toList 5 :=
  (C214_propagate (fun _ => none) _ how exStart ⟨"car".toList, "track".toList, 0, 10, true, ""⟩ mem).2.1 5 rfl rfl
    (Or.inr (by simp [exStart]))

end Verif.Propagation
