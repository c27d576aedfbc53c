import Verif.Lemmas.Registry
import Verif.Spec.Calls

/-! Properties of single calls of the C interface: what they store, what they report, which variable they change. -/

set_option autoImplicit false

namespace Verif.Registry

variable {Kart F1 Track K : Type}

/-! ### C230: creating -/

/-- C230: a create call stores what it is asked to store exactly when the name is free; else it is an error and changes
nothing. -/
theorem C230_create (lib : Name → Option (Name → Bool)) (op : Op Kart F1 Track K) (n : Name)
    (v : Res (Value Kart F1 Track K)) (hop : creation op = some (n, v)) (r : Reg Kart F1 Track K) :
    (stored r n ≠ [] → step lib op r = (r, .throw)) ∧
    (stored r n = [] →
      (∀ x, v = .ok x → (step lib op r).2 = .ok .unit ∧
        ∀ m, stored (step lib op r).1 m = if m = n then [x] else stored r m) ∧
      (v = .throw → step lib op r = (r, .throw)) ∧
      (v = .ub → (step lib op r).2 = .ub)) := by
  cases op with
  | createVehicleXml m file =>
    cases file with
    | unreadable =>
      simp only [creation, Option.some.injEq, Prod.mk.injEq] at hop
      obtain ⟨rfl, rfl⟩ := hop
      simp [step]
    | other =>
      simp only [creation, Option.some.injEq, Prod.mk.injEq] at hop
      obtain ⟨rfl, rfl⟩ := hop
      simp [step]
    | kart k =>
      simp only [creation, Option.some.injEq, Prod.mk.injEq] at hop
      obtain ⟨rfl, rfl⟩ := hop
      refine ⟨fun h => by simp [step, taken_iff_stored.2 h], fun h => ?_⟩
      have ht := not_taken_iff_stored.2 h
      cases k with
      | ok k =>
        refine ⟨?_, by simp [Res.map], by simp [Res.map]⟩
        intro x hx
        obtain rfl := Res.ok.inj hx
        simp only [step, ht, Bool.false_eq_true, if_false]
        exact ⟨trivial, stored_putKart ht⟩
      | throw => simp [step, ht, Res.map]
      | ub => simp [step, ht, Res.map]
    | f1 k =>
      simp only [creation, Option.some.injEq, Prod.mk.injEq] at hop
      obtain ⟨rfl, rfl⟩ := hop
      refine ⟨fun h => by simp [step, taken_iff_stored.2 h], fun h => ?_⟩
      have ht := not_taken_iff_stored.2 h
      cases k with
      | ok k =>
        refine ⟨?_, by simp [Res.map], by simp [Res.map]⟩
        intro x hx
        obtain rfl := Res.ok.inj hx
        simp only [step, ht, Bool.false_eq_true, if_false]
        exact ⟨trivial, stored_putF1 ht⟩
      | throw => simp [step, ht, Res.map]
      | ub => simp [step, ht, Res.map]
  | createVehicleEmpty m type c =>
    simp only [creation, Option.some.injEq, Prod.mk.injEq] at hop
    obtain ⟨rfl, rfl⟩ := hop
    refine ⟨fun h => by simp [step, taken_iff_stored.2 h], fun h => ?_⟩
    have ht := not_taken_iff_stored.2 h
    by_cases hty : type = "f1-3dof".toList
    · have hk : ¬ type = "kart-6dof".toList := by rw [hty]; decide
      rw [if_pos hty]
      refine ⟨?_, by simp, by simp⟩
      intro x hx
      obtain rfl := Res.ok.inj hx
      simp only [step, ht, Bool.false_eq_true, if_false]
      rw [if_neg hk, if_pos hty]
      exact ⟨rfl, stored_putF1 ht⟩
    · rw [if_neg hty]
      refine ⟨by simp, fun _ => ?_, by simp⟩
      simp only [step, ht, Bool.false_eq_true, if_false]
      rw [if_neg hty]
      split <;> rfl
  | createTrackXml m file =>
    cases file with
    | unreadable =>
      simp only [creation, Option.some.injEq, Prod.mk.injEq] at hop
      obtain ⟨rfl, rfl⟩ := hop
      simp [step]
    | otherFormat =>
      simp only [creation, Option.some.injEq, Prod.mk.injEq] at hop
      obtain ⟨rfl, rfl⟩ := hop
      simp [step]
    | discrete k =>
      simp only [creation, Option.some.injEq, Prod.mk.injEq] at hop
      obtain ⟨rfl, rfl⟩ := hop
      refine ⟨fun h => by simp [step, taken_iff_stored.2 h], fun h => ?_⟩
      have ht := not_taken_iff_stored.2 h
      cases k with
      | ok k =>
        refine ⟨?_, by simp [Res.map], by simp [Res.map]⟩
        intro x hx
        obtain rfl := Res.ok.inj hx
        simp only [step, ht, Bool.false_eq_true, if_false]
        exact ⟨trivial, stored_putTrack ht⟩
      | throw => simp [step, ht, Res.map]
      | ub => simp [step, ht, Res.map]
  | createVector m len data =>
    simp only [creation, Option.some.injEq, Prod.mk.injEq] at hop
    obtain ⟨rfl, rfl⟩ := hop
    refine ⟨fun h => by simp [step, taken_iff_stored.2 h], fun h => ?_⟩
    have ht := not_taken_iff_stored.2 h
    by_cases hl : 0 ≤ len ∧ len ≤ data.length
    · have hl' : ¬ (len < 0 ∨ (data.length : Int) < len) := by omega
      rw [if_pos hl]
      refine ⟨?_, by simp, by simp⟩
      intro x hx
      obtain rfl := Res.ok.inj hx
      simp only [step, ht, Bool.false_eq_true, if_false]
      rw [if_neg hl']
      exact ⟨rfl, stored_putVector ht⟩
    · have hl' : len < 0 ∨ (data.length : Int) < len := by omega
      rw [if_neg hl]
      refine ⟨by simp, by simp, fun _ => ?_⟩
      simp only [step, ht, Bool.false_eq_true, if_false]
      rw [if_pos hl']
  | createScalar m x =>
    simp only [creation, Option.some.injEq, Prod.mk.injEq] at hop
    obtain ⟨rfl, rfl⟩ := hop
    refine ⟨fun h => by simp [step, taken_iff_stored.2 h], fun h => ?_⟩
    have ht := not_taken_iff_stored.2 h
    refine ⟨?_, by simp, by simp⟩
    intro x hx
    obtain rfl := Res.ok.inj hx
    simp only [step, ht, Bool.false_eq_true, if_false]
    exact ⟨trivial, stored_putScalar ht⟩
  | _ => simp [creation] at hop

/-- A track under a new name. -/
example : (step (Kart := Unit) (F1 := Unit) (Track := Nat) (K := Int) (fun _ => none)
    (.createTrackXml "t".toList (.discrete (.ok 7))) Reg.empty).2 = .ok .unit :=
  (((C230_create (fun _ => none) _ "t".toList _ rfl _).2 rfl).1 _ rfl).1

/-- A kart without a file is an error. -/
example : step (Kart := Unit) (F1 := Unit) (Track := Nat) (K := Int) (fun _ => none)
    (.createVehicleEmpty "k".toList "kart-6dof".toList ()) Reg.empty = (Reg.empty, .throw) :=
  ((C230_create (fun _ => none) _ "k".toList _ rfl _).2 rfl).2.1 rfl

/-! ### C231: reading -/

/-- C231: the calls that read a scalar, the size of a vector and the type of a variable report what is stored under the
name, and are an error for any other name; they change nothing. -/
theorem C231_read (lib : Name → Option (Name → Bool)) (n : Name) (r : Reg Kart F1 Track K) (hu : Unique r) :
    step lib (.downloadScalar n) r
      = (r, match stored r n with | [.scalar x] => .ok (.num x) | _ => .throw) ∧
    step lib (.downloadVectorSize n) r
      = (r, match stored r n with | [.vector x] => .ok (.size x.length) | _ => .throw) ∧
    step lib (.variableType n) r
      = (r, match stored r n with | [v] => .ok (.name v.type.toList) | _ => .throw) := by
  have := hu n
  revert this
  simp only [step, stored]
  rcases r.kart n with _ | k <;> rcases r.f1 n with _ | c <;> rcases r.track n with _ | t <;>
    rcases r.scalar n with _ | x <;> rcases r.vector n with _ | y <;> simp [Value.type]

/-- A library with a scalar and an F1 car. -/
def exCalls : Reg Unit Nat Nat Int :=
  { kart := fun _ => none
    f1 := fun n => if n = "car".toList then some 5 else none
    track := fun n => if n = "catalunya".toList then some 9 else none
    scalar := fun n => if n = "a".toList then some 3 else none
    vector := fun _ => none }

theorem exCalls_unique : Unique exCalls := by
  intro n
  by_cases h1 : n = "a".toList
  · subst h1; exact Nat.le_refl 1
  by_cases h2 : n = "car".toList
  · subst h2; exact Nat.le_refl 1
  by_cases h3 : n = "catalunya".toList
  · subst h3; exact Nat.le_refl 1
  simp only [stored, exCalls, if_neg h1, if_neg h2, if_neg h3]
  exact Nat.zero_le 1

example : step (fun _ => none) (.variableType "car".toList) exCalls = (exCalls, .ok (.name "f1-3dof".toList)) :=
  (C231_read (fun _ => none) "car".toList exCalls exCalls_unique).2.2

example : step (fun _ => none) (.downloadScalar "car".toList) exCalls = (exCalls, .throw) :=
  (C231_read (fun _ => none) "car".toList exCalls exCalls_unique).1

/-! ### C232: calls that work on a vehicle or a track -/

theorem stored_overwriteF1 {r : Reg Kart F1 Track K} {n : Name} {c c' : F1} (h : stored r n = [.f1 c]) (m : Name) :
    stored { r with f1 := overwrite r.f1 n c' } m = if m = n then [.f1 c'] else stored r m := by
  split
  · rename_i hm
    subst hm
    revert h
    simp only [stored, overwrite]
    rcases r.kart m with _ | k <;> rcases r.f1 m with _ | c <;> rcases r.track m with _ | t <;>
      rcases r.scalar m with _ | x <;> rcases r.vector m with _ | y <;> simp
  · rename_i hm
    simp [stored, overwrite, hm]

theorem stored_overwriteKart {r : Reg Kart F1 Track K} {n : Name} {c c' : Kart} (h : stored r n = [.kart c]) (m : Name) :
    stored { r with kart := overwrite r.kart n c' } m = if m = n then [.kart c'] else stored r m := by
  split
  · rename_i hm
    subst hm
    revert h
    simp only [stored, overwrite]
    rcases r.kart m with _ | k <;> rcases r.f1 m with _ | c <;> rcases r.track m with _ | t <;>
      rcases r.scalar m with _ | x <;> rcases r.vector m with _ | y <;> simp
  · rename_i hm
    simp [stored, overwrite, hm]

theorem stored_overwriteTrack {r : Reg Kart F1 Track K} {n : Name} {c c' : Track} (h : stored r n = [.track c])
    (m : Name) : stored { r with track := overwrite r.track n c' } m = if m = n then [.track c'] else stored r m := by
  split
  · rename_i hm
    subst hm
    revert h
    simp only [stored, overwrite]
    rcases r.kart m with _ | k <;> rcases r.f1 m with _ | c <;> rcases r.track m with _ | t <;>
      rcases r.scalar m with _ | x <;> rcases r.vector m with _ | y <;> simp
  · rename_i hm
    simp [stored, overwrite, hm]

theorem tables_f1 {r : Reg Kart F1 Track K} {n : Name} {c : F1} (h : stored r n = [.f1 c]) :
    r.kart n = none ∧ r.f1 n = some c := by
  revert h
  simp only [stored]
  rcases r.kart n with _ | k <;> rcases r.f1 n with _ | c <;> rcases r.track n with _ | t <;>
    rcases r.scalar n with _ | x <;> rcases r.vector n with _ | y <;> simp

theorem tables_kart {r : Reg Kart F1 Track K} {n : Name} {c : Kart} (h : stored r n = [.kart c]) :
    r.f1 n = none ∧ r.kart n = some c := by
  revert h
  simp only [stored]
  rcases r.kart n with _ | k <;> rcases r.f1 n with _ | c <;> rcases r.track n with _ | t <;>
    rcases r.scalar n with _ | x <;> rcases r.vector n with _ | y <;> simp

theorem tables_track {r : Reg Kart F1 Track K} {n : Name} {c : Track} (h : stored r n = [.track c]) :
    r.track n = some c := by
  revert h
  simp only [stored]
  rcases r.kart n with _ | k <;> rcases r.f1 n with _ | c <;> rcases r.track n with _ | t <;>
    rcases r.scalar n with _ | x <;> rcases r.vector n with _ | y <;> simp

/-- C232, F1 cars: setting or declaring a parameter, using the car and changing its track replace the stored car by what
the work on it gives, report the outcome of that work, and leave every other variable as it was. -/
theorem C232_f1 (lib : Name → Option (Name → Bool)) (n : Name) (c : F1) (r : Reg Kart F1 Track K)
    (h : stored r n = [.f1 c]) :
    (∀ work : F1 → F1 × Res Unit, let o := step lib (.setParameter n work) r
      o.2 = (work c).2.map (fun _ => .unit) ∧
      ∀ m, stored o.1 m = if m = n then [.f1 (work c).1] else stored r m) ∧
    (∀ (work : F1 → F1 × Res Unit) workKart, let o := step lib (.declareParameter n work workKart) r
      o.2 = (work c).2.map (fun _ => .unit) ∧
      ∀ m, stored o.1 m = if m = n then [.f1 (work c).1] else stored r m) ∧
    (∀ b workKart (work : F1 → F1 × Res (Ret K)), let o := step lib (.useVehicle n b workKart work) r
      o.2 = (work c).2 ∧
      ∀ m, stored o.1 m = if m = n then [.f1 (work c).1] else stored r m) ∧
    (∀ tn t workKart (work : F1 → Track → F1 × Res Unit), stored r tn = [.track t] →
      let o := step lib (.useVehicleOnTrack n tn workKart work) r
      o.2 = (work c t).2.map (fun _ => .unit) ∧
      ∀ m, stored o.1 m = if m = n then [.f1 (work c t).1] else stored r m) := by
  obtain ⟨h1, h2⟩ := tables_f1 h
  have hd : ∀ x : Res Unit, done (K := K) x = x.map (fun _ => .unit) := fun x => by cases x <;> rfl
  refine ⟨fun work => ?_, fun work workKart => ?_, fun b workKart work => ?_, fun tn t workKart work ht => ?_⟩
  · simp only [step, h2]
    exact ⟨hd _, stored_overwriteF1 h⟩
  · simp only [step, h2]
    exact ⟨hd _, stored_overwriteF1 h⟩
  · simp only [step, h1, h2]
    exact ⟨trivial, stored_overwriteF1 h⟩
  · simp only [step, h1, h2, tables_track ht]
    exact ⟨hd _, stored_overwriteF1 h⟩

/-- C232, karts: as for the F1 cars, but `vehicle_set_parameter` ignores them, see `C233_unknown_false`. -/
theorem C232_kart (lib : Name → Option (Name → Bool)) (n : Name) (c : Kart) (r : Reg Kart F1 Track K)
    (h : stored r n = [.kart c]) :
    (∀ workF1 (work : Kart → Kart × Res Unit), let o := step lib (.declareParameter n workF1 work) r
      o.2 = (work c).2.map (fun _ => .unit) ∧
      ∀ m, stored o.1 m = if m = n then [.kart (work c).1] else stored r m) ∧
    (∀ b (work : Kart → Kart × Res (Ret K)) workF1, let o := step lib (.useVehicle n b work workF1) r
      o.2 = (work c).2 ∧
      ∀ m, stored o.1 m = if m = n then [.kart (work c).1] else stored r m) ∧
    (∀ tn t (work : Kart → Track → Kart × Res Unit) workF1, stored r tn = [.track t] →
      let o := step lib (.useVehicleOnTrack n tn work workF1) r
      o.2 = (work c t).2.map (fun _ => .unit) ∧
      ∀ m, stored o.1 m = if m = n then [.kart (work c t).1] else stored r m) := by
  obtain ⟨h1, h2⟩ := tables_kart h
  have hd : ∀ x : Res Unit, done (K := K) x = x.map (fun _ => .unit) := fun x => by cases x <;> rfl
  refine ⟨fun workF1 work => ?_, fun b work workF1 => ?_, fun tn t work workF1 ht => ?_⟩
  · simp only [step, h1, h2]
    exact ⟨hd _, stored_overwriteKart h⟩
  · simp only [step, h2]
    exact ⟨trivial, stored_overwriteKart h⟩
  · simp only [step, h2, tables_track ht]
    exact ⟨hd _, stored_overwriteKart h⟩

/-- C232, tracks: `track_set_track_limit_correction` replaces the stored track and nothing else; a name that is no track
is an error and changes nothing. -/
theorem C232_track (lib : Name → Option (Name → Bool)) (n : Name) (r : Reg Kart F1 Track K)
    (work : Track → Track × Res Unit) :
    (∀ t, stored r n = [.track t] → let o := step lib (.setTrackLimit n work) r
      o.2 = (work t).2.map (fun _ => .unit) ∧
      ∀ m, stored o.1 m = if m = n then [.track (work t).1] else stored r m) ∧
    ((∀ v ∈ stored r n, v.type ≠ "track") → step lib (.setTrackLimit n work) r = (r, .throw)) := by
  refine ⟨fun t h => ?_, fun h => ?_⟩
  · simp only [step, tables_track h]
    refine ⟨?_, stored_overwriteTrack h⟩
    cases (work t).2 <;> rfl
  · simp only [step]
    split
    · rfl
    · rename_i t ht
      refine absurd rfl (h (.track t) ?_)
      simp [stored, ht]

/-- C232: the car changes, the track and the scalar do not. -/
example : let r := (step (fun _ => none) (.setParameter "car".toList fun c => (c + 1, .ok ())) exCalls).1
    stored r "car".toList = [.f1 6] ∧ stored r "a".toList = [.scalar 3] := by
  have h := ((C232_f1 (fun _ => none) "car".toList 5 exCalls rfl).1 fun c => (c + 1, .ok ())).2
  exact ⟨(h _).trans rfl, (h _).trans rfl⟩

/-! ### C233: unknown vehicles -/

theorem no_vehicle {r : Reg Kart F1 Track K} {n : Name} (h : ¬ HasVehicle r n) : r.kart n = none ∧ r.f1 n = none := by
  constructor
  · rcases hk : r.kart n with _ | k
    · rfl
    · exact absurd ⟨.kart k, by simp [stored, hk], .inl rfl⟩ h
  · rcases hk : r.f1 n with _ | k
    · rfl
    · exact absurd ⟨.f1 k, by simp [stored, hk], .inr rfl⟩ h

/-- C233: a call with the name of a vehicle that does not exist changes nothing; declaring a parameter, reading an output
and saving the vehicle are errors. Missing: the other calls are no errors, see `C233_unknown_false`. -/
theorem C233_unknown_partial (lib : Name → Option (Name → Bool)) (n : Name) (r : Reg Kart F1 Track K)
    (h : ¬ HasVehicle r n) :
    (∀ w w', step lib (.declareParameter n w w') r = (r, .throw)) ∧
    (∀ w w', step lib (.useVehicle n true w w') r = (r, .throw)) ∧
    (∀ w w', (step lib (.useVehicle n false w w') r).1 = r) ∧
    (∀ w, (step lib (.setParameter n w) r).1 = r) ∧
    (∀ tn w w', (step lib (.useVehicleOnTrack n tn w w') r).1 = r) ∧
    (∀ tn w w' job, (step lib (.optimalLaptime n tn w w' job) r).1 = r) := by
  obtain ⟨h1, h2⟩ := no_vehicle h
  simp [step, h1, h2]

/-- C233 is false: setting a parameter, computing a steady state, changing the track and computing a lap of a vehicle that
does not exist are reported as successes; setting a parameter of a kart too. -/
theorem C233_unknown_false (lib : Name → Option (Name → Bool)) (n : Name) (r : Reg Kart F1 Track K)
    (h : ¬ HasVehicle r n) :
    (∀ w, (step lib (.setParameter n w) r).2 = .ok .unit) ∧
    (∀ w w', (step lib (.useVehicle n false w w') r).2 = .ok .unit) ∧
    (∀ tn w w', (step lib (.useVehicleOnTrack n tn w w') r).2 = .ok .unit) ∧
    (∀ tn w w' job, (step lib (.optimalLaptime n tn w w' job) r).2 = .ok .unit) ∧
    (∀ k c w, stored r k = [.kart c] → step lib (.setParameter k w) r = (r, .ok .unit)) := by
  obtain ⟨h1, h2⟩ := no_vehicle h
  refine ⟨?_, ?_, ?_, ?_, fun k c w hk => ?_⟩
  · simp [step, h2]
  · simp [step, h1, h2]
  · simp [step, h1, h2]
  · simp [step, h1, h2]
  · simp [step, (tables_kart hk).1]

example : step (fun _ => none) (.setParameter "cat".toList fun c => (c + 1, .ok ())) exCalls = (exCalls, .ok .unit) := by
  have h : ¬ HasVehicle exCalls "cat".toList := by
    rintro ⟨v, hv, -⟩
    exact absurd hv List.not_mem_nil
  exact Prod.ext ((C233_unknown_partial (fun _ => none) _ _ h).2.2.2.1 _) ((C233_unknown_false (fun _ => none) _ _ h).1 _)

/-! ### C234: where variables come from -/

theorem Adds.free {r r' : Reg Kart F1 Track K} {S V : Name → Prop} (h : Adds r r' S V) {n : Name}
    (hn : stored r n = []) (hS : ¬ S n) (hV : ¬ V n) : stored r' n = [] := by
  obtain ⟨h1, h2, h3, h4, h5⟩ := not_taken_iff.1 (not_taken_iff_stored.2 hn)
  refine not_taken_iff_stored.1 (not_taken_iff.2 ⟨?_, ?_, ?_, ?_, ?_⟩)
  · rw [h.kart]; exact h1
  · rw [h.f1]; exact h2
  · rw [h.track]; exact h3
  · exact h.scalarNew n h4 hS
  · exact h.vectorNew n h5 hV

theorem saveLap_free {r : Reg Kart F1 Track K} {job : LapJob K} {n : Name} (hn : stored r n = [])
    (h : ¬ ∃ v ∈ job.vars, n = job.pre ++ v ∨
      job.sens = true ∧ ∃ a ∈ job.aliases, n = job.pre ++ "derivatives/".toList ++ v ++ "/".toList ++ a) :
    stored (saveLap r job).1 n = [] := by
  have hd : ∀ v a, derivativeName job.pre v a = job.pre ++ "derivatives/".toList ++ v ++ "/".toList ++ a := by
    intro v a
    simp [derivativeName]
  rcases saveLap_adds r job with e | ⟨-, e⟩
  · rw [e]; exact hn
  · refine e.free hn (fun hs => h ?_) (fun hv => h ?_)
    · rcases hs with ⟨hl, rfl | ⟨hs, a, ha, rfl⟩⟩ | ⟨v, hv, rfl⟩
      · exact ⟨_, hl, .inl rfl⟩
      · exact ⟨_, hl, .inr ⟨hs, a, ha, hd _ _⟩⟩
      · exact ⟨_, List.mem_of_mem_filter hv, .inl rfl⟩
    · obtain ⟨v, hv, -, rfl | ⟨hs, a, ha, rfl⟩⟩ := hv
      · exact ⟨_, List.mem_of_mem_filter hv, .inl rfl⟩
      · exact ⟨_, List.mem_of_mem_filter hv, .inr ⟨hs, a, ha, hd _ _⟩⟩

theorem free_iff {r : Reg Kart F1 Track K} {n : Name} : stored r n = [] ↔
    r.kart n = none ∧ r.f1 n = none ∧ r.track n = none ∧ r.scalar n = none ∧ r.vector n = none := by
  rw [← not_taken_iff_stored, not_taken_iff]

theorem overwrite_none {V : Type} {t : Table V} {k n : Name} {v x : V} (h : t n = none) (hx : t k = some x) :
    overwrite t k v n = none := by
  have : n ≠ k := by
    rintro rfl
    rw [h] at hx
    exact absurd hx (by simp)
  simp [overwrite, this, h]

theorem free_kart {r : Reg Kart F1 Track K} {k n : Name} {x y : Kart} (hn : stored r n = []) (hx : r.kart k = some x) :
    stored { r with kart := overwrite r.kart k y } n = [] := by
  obtain ⟨h1, h2⟩ := free_iff.1 hn
  exact free_iff.2 ⟨overwrite_none h1 hx, h2⟩

theorem free_f1 {r : Reg Kart F1 Track K} {k n : Name} {x y : F1} (hn : stored r n = []) (hx : r.f1 k = some x) :
    stored { r with f1 := overwrite r.f1 k y } n = [] := by
  obtain ⟨h1, h2, h3⟩ := free_iff.1 hn
  exact free_iff.2 ⟨h1, overwrite_none h2 hx, h3⟩

theorem free_track {r : Reg Kart F1 Track K} {k n : Name} {x y : Track} (hn : stored r n = []) (hx : r.track k = some x) :
    stored { r with track := overwrite r.track k y } n = [] := by
  obtain ⟨h1, h2, h3, h4⟩ := free_iff.1 hn
  exact free_iff.2 ⟨h1, h2, overwrite_none h3 hx, h4⟩

theorem runCircuit_free {r : Reg Kart F1 Track K} {job : CircuitJob Track K} {n : Name} (hn : stored r n = [])
    (h1 : job.saveTo ≠ some n) (h2 : ¬ ∃ p, job.outputs = some p ∧ ∃ o ∈ circuitOutputs, n = p ++ o) :
    stored (runCircuit r job).1 n = [] := by
  have hfree : ∀ (r1 : Reg Kart F1 Track K), stored r1 n = [] →
      stored (match job.xml with
        | .throw => (r1, .throw)
        | .ub => (r1, .ub)
        | .ok _ =>
          match job.outputs with
          | none => (r1, .ok .unit)
          | some pre => saveOutputs pre job.data circuitOutputs r1 : Reg Kart F1 Track K × Res (Ret K)).1 n = [] := by
    intro r1 h
    split
    · exact h
    · exact h
    · split
      · exact h
      · rename_i p hp
        refine (saveOutputs_adds p job.data circuitOutputs r1 (fun m => ∃ o ∈ circuitOutputs, m = p ++ o)
          fun o ho _ => ⟨o, ho, rfl⟩).free h (fun h => h) fun hv => h2 ⟨p, hp, hv⟩
  unfold runCircuit
  split
  · exact hn
  · exact hn
  · rename_i t
    rcases hs : job.saveTo with _ | m
    · exact hfree r hn
    · simp only
      split
      · exact hn
      · rename_i r1 hr1
        split at hr1
        · exact absurd hr1 (by simp)
        · obtain rfl := Option.some.inj hr1
          refine hfree _ ?_
          obtain ⟨a1, a2, a3, a4, a5⟩ := free_iff.1 hn
          refine free_iff.2 ⟨a1, a2, ?_, a4, a5⟩
          have : n ≠ m := by
            rintro rfl
            exact h1 hs
          exact (put_ne _ _ this).trans a3

/-- A call that cannot store a variable with a name leaves that name free. -/
theorem C234_call (lib : Name → Option (Name → Bool)) (op : Op Kart F1 Track K) (n : Name) (h : ¬ CanAdd n op)
    (r : Reg Kart F1 Track K) (hn : stored r n = []) : stored (step lib op r).1 n = [] := by
  obtain ⟨a1, a2, a3, a4, a5⟩ := free_iff.1 hn
  cases op with
  | circuitPreprocessor job =>
    exact runCircuit_free hn (fun h' => h (.inl h')) fun h' => h (.inr h')
  | optimalLaptime m tn w w' job =>
    simp only [step]
    split
    · split
      · exact hn
      · exact saveLap_free (free_kart hn ‹_›) h
    · split
      · exact hn
      · exact saveLap_free (free_f1 hn ‹_›) h
    · exact hn
  | setParameter m w =>
    simp only [step]
    split
    · exact hn
    · exact free_f1 hn ‹_›
  | declareParameter m w w' =>
    simp only [step]
    split
    · exact free_f1 hn ‹_›
    · exact free_kart hn ‹_›
    · exact hn
  | useVehicle m b w w' =>
    simp only [step]
    split
    · exact free_kart hn ‹_›
    · exact free_f1 hn ‹_›
    · exact hn
  | useVehicleOnTrack m tn w w' =>
    simp only [step]
    split
    · split
      · exact hn
      · exact free_kart hn ‹_›
    · split
      · exact hn
      · exact free_f1 hn ‹_›
    · exact hn
  | setTrackLimit m w =>
    simp only [step]
    split
    · exact hn
    · exact free_track hn ‹_›
  | delete p =>
    simp only [step]
    split
    · exact hn
    · refine free_iff.2 ?_
      simp [dropIf, a1, a2, a3, a4, a5]
  | copy old new =>
    have hne : n ≠ new := fun e => h e.symm
    simp only [step]
    split
    · exact hn
    · split <;> refine free_iff.2 ⟨?_, ?_, ?_, ?_, ?_⟩ <;> first | assumption | exact (put_ne _ _ hne).trans ‹_›
  | move old new =>
    have hne : n ≠ new := fun e => h e.symm
    simp only [step]
    split
    · exact hn
    · split <;> refine free_iff.2 ⟨?_, ?_, ?_, ?_, ?_⟩ <;> first
        | assumption
        | simp [drop, put, hne, a1, a2, a3, a4, a5]
  | createVehicleXml m f =>
    have hne : n ≠ m := fun e => h e.symm
    simp only [step]
    split
    · exact hn
    · split <;> refine free_iff.2 ⟨?_, ?_, ?_, ?_, ?_⟩ <;> first | assumption | exact (put_ne _ _ hne).trans ‹_›
  | createVehicleEmpty m t b =>
    have hne : n ≠ m := fun e => h e.symm
    simp only [step]
    repeat' split
    all_goals refine free_iff.2 ⟨?_, ?_, ?_, ?_, ?_⟩ <;> first | assumption | exact (put_ne _ _ hne).trans ‹_›
  | createTrackXml m f =>
    have hne : n ≠ m := fun e => h e.symm
    simp only [step]
    split
    · exact hn
    · split <;> refine free_iff.2 ⟨?_, ?_, ?_, ?_, ?_⟩ <;> first | assumption | exact (put_ne _ _ hne).trans ‹_›
  | createVector m l d =>
    have hne : n ≠ m := fun e => h e.symm
    simp only [step]
    repeat' split
    all_goals refine free_iff.2 ⟨?_, ?_, ?_, ?_, ?_⟩ <;> first | assumption | exact (put_ne _ _ hne).trans ‹_›
  | createScalar m x =>
    have hne : n ≠ m := fun e => h e.symm
    simp only [step]
    repeat' split
    all_goals refine free_iff.2 ⟨?_, ?_, ?_, ?_, ?_⟩ <;> first | assumption | exact (put_ne _ _ hne).trans ‹_›
  | downloadScalar m =>
    simp only [step]
    split <;> exact hn
  | downloadVector m l =>
    simp only [step]
    repeat' split
    all_goals exact hn
  | downloadVectorSize m =>
    simp only [step]
    split <;> exact hn
  | variableType m => exact hn

/-- C234: after any history of calls, every stored variable has a name that one of the calls was asked to use. -/
theorem C234_origin (lib : Name → Option (Name → Bool)) (ops : List (Op Kart F1 Track K)) (r : Reg Kart F1 Track K)
    (h : run lib ops Reg.empty = some r) (n : Name) (hn : stored r n ≠ []) : ∃ op ∈ ops, CanAdd n op := by
  have gen : ∀ (ops : List (Op Kart F1 Track K)) (r0 r : Reg Kart F1 Track K), stored r0 n = [] →
      run lib ops r0 = some r → (∀ op ∈ ops, ¬ CanAdd n op) → stored r n = [] := by
    intro ops
    induction ops with
    | nil =>
      intro r0 r h0 h _
      simp only [run, Option.some.injEq] at h
      exact h ▸ h0
    | cons op ops ih =>
      intro r0 r h0 h hops
      simp only [run] at h
      have hs := C234_call lib op n (hops op (by simp)) r0 h0
      split at h
      · simp at h
      · exact ih _ r hs h fun o ho => hops o (by simp [ho])
  by_contra hc
  exact hn (gen ops Reg.empty r rfl h fun op ho ha => hc ⟨op, ho, ha⟩)

/-- The name of a lap time comes from the call that computes the lap. -/
example : ∃ op ∈ [Op.createScalar (Kart := Unit) (F1 := Unit) (Track := Unit) "a".toList (1 : Int),
    .copy "a".toList "b".toList], CanAdd "b".toList op :=
  C234_origin (fun _ => none) _ _ rfl _ (by simp [stored, step, taken, put, Reg.empty])

end Verif.Registry
