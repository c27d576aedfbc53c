import Verif.Lemmas.Registry
import Verif.Lemmas.Pattern
import Verif.Model.TrackDownload

/-!
# Properties of the variables stored by the C interface (C28-C35, C61, C62)
-/

set_option autoImplicit false

namespace Verif.Registry

variable {Kart F1 Track K : Type}

/-! ### C28: a name denotes at most one variable -/

/-- Every call other than `circuit_preprocessor` keeps names unique, whether it succeeds or throws. -/
theorem C28_call_keeps_names_unique (lib : Name → Option (Name → Bool)) (op : Op Kart F1 Track K)
    (hop : Disciplined op) (r : Reg Kart F1 Track K) (hu : Unique r) :
    Unique (step lib op r).1 := by
  cases op with
  | createVehicleXml n file =>
    simp only [step]
    split
    · exact hu
    · rename_i ht
      have ht : taken r n = false := by simpa using ht
      split <;> first
        | exact hu
        | exact unique_of_stored_if hu (stored_putKart ht)
        | exact unique_of_stored_if hu (stored_putF1 ht)
  | createVehicleEmpty n type built =>
    simp only [step]
    split
    · exact hu
    · rename_i ht
      have ht : taken r n = false := by simpa using ht
      split
      · exact hu
      · split
        · exact unique_of_stored_if hu (stored_putF1 ht)
        · exact hu
  | createTrackXml n file =>
    simp only [step]
    split
    · exact hu
    · rename_i ht
      have ht : taken r n = false := by simpa using ht
      split <;> first
        | exact hu
        | exact unique_of_stored_if hu (stored_putTrack ht)
  | createVector n len data =>
    simp only [step]
    split
    · exact hu
    · rename_i ht
      have ht : taken r n = false := by simpa using ht
      split
      · exact hu
      · exact unique_of_stored_if hu (stored_putVector ht)
  | createScalar n x =>
    simp only [step]
    split
    · exact hu
    · rename_i ht
      have ht : taken r n = false := by simpa using ht
      exact unique_of_stored_if hu (stored_putScalar ht)
  | copy old new =>
    by_cases ht : taken r new = true
    · simp only [step, ht, if_true]; exact hu
    · rcases copy_stored lib (old := old) (by simpa using ht) with ⟨v, -, -, -, h⟩ | ⟨-, e⟩
      · exact unique_of_stored_if hu h
      · rw [e]; exact hu
  | move old new =>
    by_cases ht : taken r new = true
    · simp only [step, ht, if_true]; exact hu
    · exact move_unique lib hu (by simpa using ht)
  | delete pattern =>
    simp only [step]
    split
    · exact hu
    · rename_i p _
      intro n
      have := hu n
      by_cases h : p n = true <;> simp [stored, dropIf, h] at this ⊢
      exact this
  | downloadScalar n => simp only [step]; split <;> exact hu
  | downloadVector n len =>
    simp only [step]
    split
    · exact hu
    · split <;> exact hu
  | downloadVectorSize n => simp only [step]; split <;> exact hu
  | variableType n => exact hu
  | setParameter n work =>
    simp only [step]
    split
    · exact hu
    · rename_i v hv; exact unique_overwriteF1 hv hu
  | declareParameter n w1 w2 =>
    simp only [step]
    split
    · rename_i v _ hv; exact unique_overwriteF1 hv hu
    · rename_i v _ hv; exact unique_overwriteKart hv hu
    · exact hu
  | useVehicle n b w1 w2 =>
    simp only [step]
    split
    · rename_i v _ hv; exact unique_overwriteKart hv hu
    · rename_i v _ hv; exact unique_overwriteF1 hv hu
    · exact hu
  | useVehicleOnTrack n tn w1 w2 =>
    simp only [step]
    split
    · rename_i v _ hv
      split
      · exact hu
      · exact unique_overwriteKart hv hu
    · rename_i v _ hv
      split
      · exact hu
      · exact unique_overwriteF1 hv hu
    · exact hu
  | setTrackLimit tn work =>
    simp only [step]
    split
    · exact hu
    · rename_i v hv; exact unique_overwriteTrack hv hu
  | optimalLaptime n tn w1 w2 job =>
    simp only [step]
    split
    · rename_i v _ hv
      split
      · exact hu
      · exact saveLap_unique (unique_overwriteKart hv hu) hop
    · rename_i v _ hv
      split
      · exact hu
      · exact saveLap_unique (unique_overwriteF1 hv hu) hop
    · exact hu
  | circuitPreprocessor job => exact absurd hop (by simp [Disciplined])

/-- Full statement: after every history of calls names are unique. Proved for histories without
`circuit_preprocessor`; `C28_false_circuit_preprocessor` shows that it fails with it. -/
theorem C28_names_unique_partial (lib : Name → Option (Name → Bool))
    (ops : List (Op Kart F1 Track K)) (hops : ∀ op ∈ ops, Disciplined op)
    (r : Reg Kart F1 Track K) (h : run lib ops Reg.empty = some r) : Unique r := by
  have gen : ∀ (ops : List (Op Kart F1 Track K)) (r0 r : Reg Kart F1 Track K),
      (∀ op ∈ ops, Disciplined op) → Unique r0 → run lib ops r0 = some r → Unique r := by
    intro ops
    induction ops with
    | nil => intro r0 r _ hu h; simp [run] at h; exact h ▸ hu
    | cons op ops ih =>
      intro r0 r hops hu h
      simp only [run] at h
      have hstep := C28_call_keeps_names_unique lib op (hops op (by simp)) r0 hu
      have hrest := fun o (ho : o ∈ ops) => hops o (by simp [ho])
      split at h
      · simp at h
      · exact ih _ r hrest hstep h
  exact gen ops Reg.empty r hops (fun n => by simp [stored, Reg.empty]) h

/-- `circuit_preprocessor` keeps names unique when the names it is asked to use are not used for
variables of another type. -/
theorem C28_circuit_preprocessor_partial (lib : Name → Option (Name → Bool))
    (job : CircuitJob Track K) (r : Reg Kart F1 Track K) (hu : Unique r)
    (hc : CircuitNamesApart r job) : Unique (step lib (.circuitPreprocessor job) r).1 :=
  runCircuit_unique hu hc

/-- The property fails: create the scalar `a`, then let `circuit_preprocessor` insert the track `a`. -/
theorem C28_false_circuit_preprocessor (lib : Name → Option (Name → Bool)) (x : K) (t : Track)
    (data : Name → Res (List K)) :
    ∃ (r : Reg Kart F1 Track K), run lib
      [.createScalar "a".toList x,
       .circuitPreprocessor ⟨.ok t, some "a".toList, .ok (), none, data⟩] Reg.empty = some r ∧
      stored r "a".toList = [.track t, .scalar x] := by
  refine ⟨_, rfl, ?_⟩
  simp [stored, step, runCircuit, taken, put, Reg.empty]

/-- A history that the theorem speaks about: a scalar, a rejected second scalar of that name, a vector, a move. -/
example : ∃ r, run (Kart := Unit) (F1 := Unit) (Track := Unit) (K := Int) (fun _ => none)
    [.createScalar "a".toList 1, .createScalar "a".toList 2, .createVector "v".toList 2 [5, 6, 7],
      .move "v".toList "w".toList] Reg.empty = some r ∧ Unique r ∧
      stored r "a".toList = [.scalar 1] ∧ stored r "w".toList = [.vector [5, 6]] ∧
      stored r "v".toList = [] := by
  have hu := fun r h => C28_names_unique_partial (Kart := Unit) (F1 := Unit) (Track := Unit)
    (K := Int) (fun _ => none) [.createScalar "a".toList 1, .createScalar "a".toList 2,
      .createVector "v".toList 2 [5, 6, 7], .move "v".toList "w".toList]
      (by simp [Disciplined]) r h
  refine ⟨_, rfl, hu _ rfl, ?_, ?_, ?_⟩ <;>
    simp [stored, step, taken, put, drop, Reg.empty]

/-! ### C29: what was stored is what is downloaded -/

/-- A stored scalar stays as it is under every call that does not remove it. -/
theorem C29_scalar_kept (lib : Name → Option (Name → Bool)) (n : Name) (x : K)
    (op : Op Kart F1 Track K) (hop : ¬ CanRemove lib n op) (r : Reg Kart F1 Track K)
    (h : r.scalar n = some x) : (step lib op r).1.scalar n = some x := by
  have hsave : ∀ (r : Reg Kart F1 Track K) job, r.scalar n = some x →
      (saveLap r job).1.scalar n = some x := by
    intro r job h
    rcases saveLap_adds r job with e | ⟨-, e⟩
    · rw [e]; exact h
    · exact e.scalarKeep n x h
  cases op with
  | circuitPreprocessor job =>
    simp only [step, runCircuit]
    split
    · exact h
    · exact h
    · split
      · exact h
      · rename_i r1 hr1
        have h1 : r1.scalar n = some x := by
          split at hr1
          · cases hr1; exact h
          · split at hr1
            · simp at hr1
            · cases hr1; exact h
        split
        · exact h1
        · exact h1
        · split
          · exact h1
          · rename_i pre _
            exact (saveOutputs_adds pre job.data circuitOutputs r1 (fun _ => True)
              (fun _ _ _ => trivial)).scalarKeep n x h1
  | optimalLaptime m tn w1 w2 job =>
    simp only [step]
    split <;> [split; split; skip] <;> first
      | exact h
      | exact hsave _ job h
  | delete p =>
    simp only [step]
    split
    · exact h
    · rename_i sel hsel
      have : sel n = false := by
        by_contra hc
        exact hop ⟨sel, hsel, by simpa using hc⟩
      simp [dropIf, this, h]
  | move old new =>
    have hne : n ≠ old := fun e => hop e.symm
    simp only [step]
    split
    · exact h
    · split <;> first
        | exact h
        | simp only [drop, if_neg hne]; exact put_of_some _ h
  | _ =>
    simp only [step]; (repeat' split) <;> first
      | exact h
      | exact put_of_some _ h

/-- A stored vector stays as it is under every call that does not remove it. -/
theorem C29_vector_kept (lib : Name → Option (Name → Bool)) (n : Name) (x : List K)
    (op : Op Kart F1 Track K) (hop : ¬ CanRemove lib n op) (r : Reg Kart F1 Track K)
    (h : r.vector n = some x) : (step lib op r).1.vector n = some x := by
  have hsave : ∀ (r : Reg Kart F1 Track K) job, r.vector n = some x →
      (saveLap r job).1.vector n = some x := by
    intro r job h
    rcases saveLap_adds r job with e | ⟨-, e⟩
    · rw [e]; exact h
    · exact e.vectorKeep n x h
  cases op with
  | circuitPreprocessor job =>
    simp only [step, runCircuit]
    split
    · exact h
    · exact h
    · split
      · exact h
      · rename_i r1 hr1
        have h1 : r1.vector n = some x := by
          split at hr1
          · cases hr1; exact h
          · split at hr1
            · simp at hr1
            · cases hr1; exact h
        split
        · exact h1
        · exact h1
        · split
          · exact h1
          · rename_i pre _
            exact (saveOutputs_adds pre job.data circuitOutputs r1 (fun _ => True)
              (fun _ _ _ => trivial)).vectorKeep n x h1
  | optimalLaptime m tn w1 w2 job =>
    simp only [step]
    split <;> [split; split; skip] <;> first
      | exact h
      | exact hsave _ job h
  | delete p =>
    simp only [step]
    split
    · exact h
    · rename_i sel hsel
      have : sel n = false := by
        by_contra hc
        exact hop ⟨sel, hsel, by simpa using hc⟩
      simp [dropIf, this, h]
  | move old new =>
    have hne : n ≠ old := fun e => hop e.symm
    simp only [step]
    split
    · exact h
    · split <;> first
        | exact h
        | simp only [drop, if_neg hne]; exact put_of_some _ h
  | _ =>
    simp only [step]; (repeat' split) <;> first
      | exact h
      | exact put_of_some _ h

/-- Create a scalar, do anything that does not remove it, download it. -/
theorem C29_scalar_create_then_download (lib : Name → Option (Name → Bool)) (n : Name) (x : K)
    (r r' : Reg Kart F1 Track K) (hfree : stored r n = []) (ops : List (Op Kart F1 Track K))
    (hops : ∀ op ∈ ops, ¬ CanRemove lib n op)
    (hrun : run lib (.createScalar n x :: ops) r = some r') :
    (step lib (.downloadScalar n) r').2 = .ok (.num x) := by
  have hnt := not_taken_iff_stored.2 hfree
  have gen : ∀ (ops : List (Op Kart F1 Track K)) (r0 r1 : Reg Kart F1 Track K),
      (∀ op ∈ ops, ¬ CanRemove lib n op) → r0.scalar n = some x → run lib ops r0 = some r1 →
      r1.scalar n = some x := by
    intro ops
    induction ops with
    | nil => intro r0 r1 _ h0 h; simp [run] at h; exact h ▸ h0
    | cons op ops ih =>
      intro r0 r1 hc h0 h
      simp only [run] at h
      have hstep := C29_scalar_kept lib n x op (hc op (by simp)) r0 h0
      have hrest := fun o (ho : o ∈ ops) => hc o (by simp [ho])
      split at h
      · simp at h
      · exact ih _ r1 hrest hstep h
  simp only [run, step, hnt] at hrun
  have := gen ops _ r' hops (put_self _ _ (not_taken_iff.1 hnt).2.2.2.1) hrun
  simp [step, this]

/-- Create a vector, do anything that does not remove it, download it: the first `len` values given. -/
theorem C29_vector_create_then_download (lib : Name → Option (Name → Bool)) (n : Name)
    (data : List K) (len : Nat) (hlen : len ≤ data.length)
    (r r' : Reg Kart F1 Track K) (hfree : stored r n = []) (ops : List (Op Kart F1 Track K))
    (hops : ∀ op ∈ ops, ¬ CanRemove lib n op)
    (hrun : run lib (.createVector n len data :: ops) r = some r') :
    (step lib (.downloadVectorSize n) r').2 = .ok (.size len) ∧
    (step lib (.downloadVector n len) r').2 = .ok (.arr (data.take len)) := by
  have hnt := not_taken_iff_stored.2 hfree
  have gen : ∀ (ops : List (Op Kart F1 Track K)) (r0 r1 : Reg Kart F1 Track K) x,
      (∀ op ∈ ops, ¬ CanRemove lib n op) → r0.vector n = some x → run lib ops r0 = some r1 →
      r1.vector n = some x := by
    intro ops
    induction ops with
    | nil => intro r0 r1 x _ h0 h; simp [run] at h; exact h ▸ h0
    | cons op ops ih =>
      intro r0 r1 x hc h0 h
      simp only [run] at h
      have hstep := C29_vector_kept lib n x op (hc op (by simp)) r0 h0
      have hrest := fun o (ho : o ∈ ops) => hc o (by simp [ho])
      split at h
      · simp at h
      · exact ih _ r1 x hrest hstep h
  have hcond : ¬ ((len : Int) < 0 ∨ (data.length : Int) < len) := by omega
  simp only [run, step, hnt, if_neg hcond, Bool.false_eq_true, if_false] at hrun
  have := gen ops _ r' _ hops (put_self _ _ (not_taken_iff.1 hnt).2.2.2.2) hrun
  have hl : (data.take ((len : Int).toNat)).length = len := by simp [hlen]
  refine ⟨by simp only [step, this, hl], ?_⟩
  have hb : Buffer.toSize (len : Int) = len := by simp [Buffer.toSize]
  simp only [step, this, hl, hb, ne_eq, not_true, if_false]
  simp

/-- In between, another name is deleted by pattern, the variable is copied and its copy moved. -/
example : ∃ r', run (Kart := Unit) (F1 := Unit) (Track := Unit) (K := Int) (fun _ => none)
    [.createVector "v".toList 2 [5, 6, 7], .copy "v".toList "w1".toList,
      .move "w1".toList "w2".toList, .delete "w*".toList] Reg.empty = some r' ∧
    (step (fun _ => none) (.downloadVector "v".toList 2) r').2 = .ok (.arr [5, 6]) := by
  have hsel : Pattern.selects (fun _ => none) "w*".toList
      = some (Pattern.fullMatch (Pattern.globAtoms "w*".toList)) :=
    Pattern.selects_ordinary _ (by intro c hc; simp at hc; rcases hc with rfl | rfl <;> simp [Ordinary])
  have key := fun r' h => (C29_vector_create_then_download (Kart := Unit) (F1 := Unit) (Track := Unit)
    (K := Int) (fun _ => none) "v".toList [5, 6, 7] 2 (by simp) Reg.empty r'
    (by simp [stored, Reg.empty])
    [.copy "v".toList "w1".toList, .move "w1".toList "w2".toList, .delete "w*".toList]
    (by
      intro op hop
      simp only [List.mem_cons, List.not_mem_nil, or_false] at hop
      rcases hop with rfl | rfl | rfl
      · simp [CanRemove]
      · simp [CanRemove]
      · rintro ⟨sel, hs, hn⟩
        rw [hsel] at hs; cases hs
        simp [Pattern.globAtoms, Pattern.fullMatch] at hn) h).2
  refine ⟨_, rfl, key _ rfl⟩

/-! ### C30: copy and move -/

/-- Copy: accepted exactly when the old name is stored and the new one is free; then the new name gets
the same type and value, everything else is unchanged. Otherwise it throws and nothing changes. -/
theorem C30_copy (lib : Name → Option (Name → Bool)) (old new : Name) (r : Reg Kart F1 Track K)
    (hu : Unique r) :
    (stored r old ≠ [] ∧ stored r new = [] →
      (step lib (.copy old new) r).2 = .ok .unit ∧
      ∀ n, stored (step lib (.copy old new) r).1 n
        = if n = new then stored r old else stored r n) ∧
    (stored r old = [] ∨ stored r new ≠ [] → step lib (.copy old new) r = (r, .throw)) := by
  constructor
  · rintro ⟨hold, hnew⟩
    rcases copy_stored lib (old := old) (not_taken_iff_stored.2 hnew) with ⟨v, h1, -, h2, h3⟩ | ⟨h, -⟩
    · rw [h1 hu]; exact ⟨h2, h3⟩
    · exact absurd h hold
  · intro h
    by_cases ht : taken r new = true
    · simp [step, ht]
    · have hnew : stored r new = [] := not_taken_iff_stored.1 (by simpa using ht)
      rcases h with h | h
      · rcases copy_stored lib (old := old) (by simpa using ht) with ⟨v, -, h1, -⟩ | ⟨-, e⟩
        · exact absurd h h1
        · exact e
      · exact absurd hnew h

/-- Move: as copy, and the old name is free afterwards. -/
theorem C30_move (lib : Name → Option (Name → Bool)) (old new : Name) (r : Reg Kart F1 Track K)
    (hu : Unique r) :
    (stored r old ≠ [] ∧ stored r new = [] →
      (step lib (.move old new) r).2 = .ok .unit ∧
      ∀ n, stored (step lib (.move old new) r).1 n
        = if n = new then stored r old else if n = old then [] else stored r n) ∧
    (stored r old = [] ∨ stored r new ≠ [] → step lib (.move old new) r = (r, .throw)) := by
  constructor
  · rintro ⟨hold, hnew⟩
    exact move_stored lib hu (not_taken_iff_stored.2 hnew) hold
  · intro h
    by_cases ht : taken r new = true
    · simp [step, ht]
    · have hnew : stored r new = [] := not_taken_iff_stored.1 (by simpa using ht)
      rcases h with h | h
      · rcases move_cases lib (old := old) (new := new) (r := r) (by simpa using ht) with
          ⟨x, h1, e⟩ | ⟨x, h1, h2, e⟩ | ⟨x, h1, h2, h3, e⟩ |
          ⟨x, h1, h2, h3, h4, e⟩ | ⟨x, h1, h2, h3, h4, h5, e⟩ | ⟨h, e⟩
        · simp [stored, h1] at h
        · simp [stored, h2] at h
        · simp [stored, h3] at h
        · simp [stored, h4] at h
        · simp [stored, h5] at h
        · exact e
      · exact absurd hnew h

/-- Old equal to new: rejected, by the theorem above. -/
example (r : Reg Unit Unit Unit Int) (hu : Unique r) :
    step (fun _ => none) (.move "a".toList "a".toList) r = (r, .throw) :=
  (C30_move _ _ _ r hu).2 (Classical.em _)

/-- A move of a scalar, by the theorem above. -/
example : stored (step (Kart := Unit) (F1 := Unit) (Track := Unit) (K := Int) (fun _ => none)
    (.move "a".toList "b".toList)
    { Reg.empty with scalar := put (fun _ => none) "a".toList 3 }).1 "b".toList = [.scalar 3] := by
  have h := ((C30_move (Kart := Unit) (F1 := Unit) (Track := Unit) (K := Int) (fun _ => none)
    "a".toList "b".toList { Reg.empty with scalar := put (fun _ => none) "a".toList 3 }
    (by intro n; by_cases h : n = "a".toList <;> simp [stored, Reg.empty, put, h])).1
    (by simp [stored, Reg.empty, put])).2 "b".toList
  rw [h]; simp [stored, Reg.empty, put]

/-! ### C31: deleting by pattern -/

/-- Full statement: for every pattern the deleted variables are those whose whole name matches. Proved
for patterns of ordinary characters and `*`, and names without line breaks. Missing: patterns with
regular-expression metacharacters such as `.` (see `C31_false_dot`), and names with line breaks
(see `C31_false_line_break`). -/
theorem C31_delete_partial (lib : Name → Option (Name → Bool)) (p : Name)
    (hp : ∀ c ∈ p, c = '*' ∨ Ordinary c) (r : Reg Kart F1 Track K) :
    (step lib (.delete p) r).2 = .ok .unit ∧
    ∀ n, (∀ c ∈ n, c ≠ '\n' ∧ c ≠ '\r') →
      (Glob p n → stored (step lib (.delete p) r).1 n = []) ∧
      (¬ Glob p n → stored (step lib (.delete p) r).1 n = stored r n) := by
  simp only [step, Pattern.selects_ordinary lib hp]
  refine ⟨trivial, fun n hn => ⟨fun h => ?_, fun h => ?_⟩⟩
  · have := (Pattern.fullMatch_globAtoms hn).2 h
    simp [stored, dropIf, this]
  · have : Pattern.fullMatch (Pattern.globAtoms p) n = false := by
      rw [← Bool.not_eq_true, Pattern.fullMatch_globAtoms hn]; exact h
    simp [stored, dropIf, this]

/-- Deleting again changes nothing, for every pattern that is accepted. -/
theorem C31_delete_twice (lib : Name → Option (Name → Bool)) (p : Name) (r : Reg Kart F1 Track K) :
    (step lib (.delete p) (step lib (.delete p) r).1).1 = (step lib (.delete p) r).1 := by
  simp only [step]
  cases Pattern.selects lib p with
  | none => rfl
  | some sel =>
    simp only [Reg.mk.injEq]
    refine ⟨?_, ?_, ?_, ?_, ?_⟩ <;>
      (funext n; by_cases h : sel n = true <;> simp [dropIf, h])

/-- Deleting the name `a.b` also deletes the variable `axb`. -/
theorem C31_false_dot (lib : Name → Option (Name → Bool)) (x : K) :
    ∃ r : Reg Kart F1 Track K,
      run lib [.createScalar "axb".toList x, .delete "a.b".toList] Reg.empty = some r ∧
      ¬ Glob "a.b".toList "axb".toList ∧ stored r "axb".toList = [] := by
  refine ⟨_, rfl, ?_, ?_⟩
  · intro h
    have h : Glob ['a', '.', 'b'] ['a', 'x', 'b'] := h
    obtain ⟨u, h1, h2⟩ := Pattern.glob_char_inv (by decide) h
    simp only [List.cons.injEq, true_and] at h1
    subst h1
    obtain ⟨u, h1, -⟩ := Pattern.glob_char_inv (by decide) h2
    simp at h1
  · have hs : Pattern.selects lib "a.b".toList
        = some (Pattern.fullMatch [.lit 'a', .any, .lit 'b']) := rfl
    simp only [step, hs]
    simp [stored, dropIf, Pattern.fullMatch, Pattern.dot]

/-- Deleting `*` keeps a variable whose name has a line break, of either kind. -/
theorem C31_false_line_break (lib : Name → Option (Name → Bool)) (x : K) (c : Char) (hc : c = '\n' ∨ c = '\r') :
    ∃ r : Reg Kart F1 Track K,
      run lib [.createScalar ['a', c, 'b'] x, .delete "*".toList] Reg.empty = some r ∧
      Glob "*".toList ['a', c, 'b'] ∧ stored r ['a', c, 'b'] = [.scalar x] := by
  refine ⟨_, rfl, Glob.star [] [] ['a', c, 'b'] Glob.nil, ?_⟩
  have hs : Pattern.selects lib "*".toList = some (Pattern.fullMatch [.anyStar]) := rfl
  simp only [step, hs]
  rcases hc with rfl | rfl <;> simp [stored, dropIf, Pattern.fullMatch, Pattern.dot, taken, put, Reg.empty]

/-- `run/*` deletes `run/laptime`. -/
example (r : Reg Unit Unit Unit Int) : stored (step (fun _ => none) (.delete "run/*".toList) r).1
    "run/laptime".toList = [] :=
  ((C31_delete_partial (fun _ => none) "run/*".toList
    (by intro c hc; simp at hc; rcases hc with rfl | rfl | rfl | rfl | rfl <;> simp [Ordinary]) r).2
    _ (by intro c hc; simp at hc; rcases hc with rfl | rfl | rfl | rfl | rfl | rfl | rfl | rfl | rfl | rfl | rfl <;> decide)).1
    (.char _ _ _ (by decide) (.char _ _ _ (by decide) (.char _ _ _ (by decide)
      (.char _ _ _ (by decide) (.star [] [] "laptime".toList .nil)))))

/-! ### C32: rejected calls change nothing -/

/-- A create, copy, move, delete or download call that throws leaves all tables as they were. -/
theorem C32_throw_changes_nothing (lib : Name → Option (Name → Bool)) (op : Op Kart F1 Track K)
    (hop : IsPlain op) (r : Reg Kart F1 Track K) (h : (step lib op r).2 = .throw) :
    (step lib op r).1 = r := by
  cases op with
  | createVehicleXml n file =>
    revert h; simp only [step]; (repeat' split) <;> simp
  | createVehicleEmpty n type built =>
    revert h; simp only [step]; (repeat' split) <;> simp
  | createTrackXml n file =>
    revert h; simp only [step]; (repeat' split) <;> simp
  | createVector n len data =>
    revert h; simp only [step]; (repeat' split) <;> simp
  | createScalar n x =>
    revert h; simp only [step]; (repeat' split) <;> simp
  | copy old new =>
    revert h; simp only [step]; (repeat' split) <;> simp
  | move old new =>
    revert h; simp only [step]; (repeat' split) <;> simp
  | delete pattern =>
    revert h; simp only [step]; (repeat' split) <;> simp
  | downloadScalar n =>
    revert h; simp only [step]; (repeat' split) <;> simp
  | downloadVector n len =>
    revert h; simp only [step]; (repeat' split) <;> simp
  | downloadVectorSize n =>
    revert h; simp only [step]; (repeat' split) <;> simp
  | variableType n => rfl
  | _ => exact absurd hop (by simp [IsPlain])

/-- Creating is accepted exactly when the name is free (scalars). -/
theorem C32_create_scalar_accepted_iff (lib : Name → Option (Name → Bool)) (n : Name) (x : K)
    (r : Reg Kart F1 Track K) :
    (stored r n = [] → (step lib (.createScalar n x) r).2 = .ok .unit ∧
      ∀ m, stored (step lib (.createScalar n x) r).1 m
        = if m = n then [.scalar x] else stored r m) ∧
    (stored r n ≠ [] → step lib (.createScalar n x) r = (r, .throw)) := by
  constructor
  · intro h
    have ht := not_taken_iff_stored.2 h
    simp only [step, ht, Bool.false_eq_true, if_false]
    exact ⟨trivial, stored_putScalar ht⟩
  · intro h
    simp [step, taken_iff_stored.2 h]

/-- A rejected vector: the name already holds a scalar. -/
example : (step (Kart := Unit) (F1 := Unit) (Track := Unit) (K := Int) (fun _ => none)
    (.createVector "a".toList 1 [4]) { Reg.empty with scalar := put (fun _ => none) "a".toList 3 }).2
    = .throw := by
  simp [step, taken, put, Reg.empty]

/-! ### C33: printing into the caller's buffer -/

/-- Full statement: the call throws or writes at most `n_char` bytes. Proved for non-negative buffer
sizes different from the length of the text; the two theorems below show the missing cases fail. -/
theorem C33_print_in_buffer_partial (nChar : Int) (text : Name) (hn : 0 ≤ nChar) :
    (nChar < text.length → Buffer.printToString nChar text = .throw) ∧
    ((text.length : Int) < nChar → Buffer.printToString nChar text = .ok (text ++ ['\x00']) ∧
      ((text ++ ['\x00']).length : Int) ≤ nChar) := by
  simp only [Buffer.printToString, Buffer.toSize, if_pos hn, Buffer.strcpy]
  constructor
  · intro h
    rw [if_pos (by omega)]
  · intro h
    rw [if_neg (by omega), if_pos (by omega)]
    exact ⟨rfl, by simp; omega⟩

/-- A buffer with exactly the length of the text is accepted and overrun by the terminator. -/
theorem C33_false_exact_length (text : Name) :
    Buffer.printToString text.length text = .ub := by
  simp [Buffer.printToString, Buffer.toSize, Buffer.strcpy]

/-- A negative size passes the check. -/
theorem C33_false_negative_size (nChar : Int) (text : Name) (h1 : nChar < 0) (h2 : -2 ^ 31 ≤ nChar)
    (h3 : text.length < 2 ^ 63) : Buffer.printToString nChar text = .ub := by
  have hs : ¬ Buffer.toSize nChar < text.length := by
    simp only [Buffer.toSize, if_neg (Int.not_le.2 h1)]; omega
  have hz : nChar.toNat = 0 := by omega
  simp [Buffer.printToString, hs, Buffer.strcpy, hz]

example : Buffer.printToString 4 "1.5".toList = .ok ("1.5".toList ++ ['\x00']) :=
  ((C33_print_in_buffer_partial 4 "1.5".toList (by decide)).2 (by decide)).1

/-! ### C34: downloads fill the caller's array exactly -/

/-- `download_vector`: the caller's array of `n` doubles is filled exactly when `n` is the size of the
variable; otherwise the call throws. -/
theorem C34_download_vector (lib : Name → Option (Name → Bool)) (name : Name) (n : Int)
    (r : Reg Kart F1 Track K) (hn : -2 ^ 31 ≤ n) :
    (∀ x, r.vector name = some x → x.length < 2 ^ 63 →
      (n = x.length → step lib (.downloadVector name n) r = (r, .ok (.arr x))) ∧
      (n ≠ x.length → step lib (.downloadVector name n) r = (r, .throw))) ∧
    (r.vector name = none → step lib (.downloadVector name n) r = (r, .throw)) := by
  refine ⟨fun x hx hlen => ⟨fun h => ?_, fun h => ?_⟩, fun h => by simp [step, h]⟩
  · subst h; simp [step, hx, Buffer.toSize]
  · have : x.length ≠ Buffer.toSize n := by
      unfold Buffer.toSize; split <;> omega
    simp [step, hx, this]

theorem readLoop_exact {A : Type} (l : List A) (i n : Nat) (h : i + n = l.length) :
    readLoop l i n = .ok (l.drop i) := by
  induction n generalizing i with
  | zero => rw [List.drop_eq_nil_of_le (by omega)]; rfl
  | succ n ih =>
    have hi : i < l.length := by omega
    simp [readLoop, idx_of_lt hi, ih (i + 1) (by omega)]

/-- What each variable name of `track_download_data` stands for. -/
def trackTable (t : TrackData K) : List (Name × List K) :=
  [("arclength".toList, t.arclength), ("heading-angle".toList, t.yaw),
    ("curvature".toList, t.yawDot), ("distance-left-boundary".toList, t.nl),
    ("distance-right-boundary".toList, t.nr),
    ("centerline.x".toList, t.centerline.map Prod.fst),
    ("centerline.y".toList, t.centerline.map Prod.snd),
    ("left.x".toList, t.left.map Prod.fst), ("left.y".toList, t.left.map Prod.snd),
    ("right.x".toList, t.right.map Prod.fst), ("right.y".toList, t.right.map Prod.snd)]

/-- `track_download_data`: for a track whose arrays have one entry per point, the call returns exactly
the `n` values of the variable when `n` is the number of points and the variable is one of the eleven
known names, and throws otherwise. -/
theorem C34_track_download (t : TrackData K) (n : Int) (hn : -2 ^ 31 ≤ n)
    (hp : t.nPoints < 2 ^ 63)
    (h1 : t.arclength.length = t.nPoints) (h2 : t.yaw.length = t.nPoints)
    (h3 : t.yawDot.length = t.nPoints) (h4 : t.nl.length = t.nPoints)
    (h5 : t.nr.length = t.nPoints) (h6 : t.centerline.length = t.nPoints)
    (h7 : t.left.length = t.nPoints) (h8 : t.right.length = t.nPoints) :
    (n ≠ t.nPoints → ∀ var, trackDownload t n var = .throw) ∧
    (n = t.nPoints →
      (∀ p ∈ trackTable t, trackDownload t n p.1 = .ok p.2 ∧ (p.2.length : Int) = n) ∧
      (∀ var, var ∉ (trackTable t).map Prod.fst → trackDownload t n var = .throw)) := by
  constructor
  · intro h var
    have : Buffer.toSize n ≠ t.nPoints := by unfold Buffer.toSize; split <;> omega
    simp [trackDownload, this]
  · rintro rfl
    have hs : Buffer.toSize (t.nPoints : Int) = t.nPoints := by simp [Buffer.toSize]
    have hr : ∀ {A : Type} (l : List A), l.length = t.nPoints → readLoop l 0 t.nPoints = .ok l :=
      fun l hl => by rw [readLoop_exact l 0 _ (by omega)]; simp
    refine ⟨fun p hv => ?_, fun var hv => ?_⟩
    · simp only [trackTable, List.mem_cons, List.not_mem_nil, or_false] at hv
      simp only [trackDownload, hs, ne_eq, not_true, if_false, hr _ h1, hr _ h2, hr _ h3, hr _ h4,
        hr _ h5, hr _ h6, hr _ h7, hr _ h8]
      rcases hv with h | h | h | h | h | h | h | h | h | h | h <;> rw [h]
      · exact ⟨rfl, by simp [h1]⟩
      · exact ⟨rfl, by simp [h2]⟩
      · exact ⟨rfl, by simp [h3]⟩
      · exact ⟨rfl, by simp [h4]⟩
      · exact ⟨rfl, by simp [h5]⟩
      · exact ⟨rfl, by simp [h6]⟩
      · exact ⟨rfl, by simp [h6]⟩
      · exact ⟨rfl, by simp [h7]⟩
      · exact ⟨rfl, by simp [h7]⟩
      · exact ⟨rfl, by simp [h8]⟩
      · exact ⟨rfl, by simp [h8]⟩
    · simp only [trackTable, List.map_cons, List.map_nil, List.mem_cons, List.not_mem_nil, or_false,
        not_or] at hv
      simp only [trackDownload, hs, ne_eq, not_true, if_false]
      simp only [hv, if_false]

/-- A track with two points. -/
example : trackDownload (K := Int) ⟨2, [0, 1], [2, 3], [4, 5], [6, 7], [8, 9], [(1, 2), (3, 4)],
    [(5, 6), (7, 8)], [(9, 10), (11, 12)]⟩ 2 "left.y".toList = .ok [6, 8] :=
  (((C34_track_download (K := Int) ⟨2, [0, 1], [2, 3], [4, 5], [6, 7], [8, 9], [(1, 2), (3, 4)],
    [(5, 6), (7, 8)], [(9, 10), (11, 12)]⟩ 2 (by decide) (by decide) rfl rfl rfl rfl rfl rfl rfl
    rfl).2 rfl).1 ("left.y".toList, [6, 8]) (by simp [trackTable])).1

/-! ### C35: alias lists -/

theorem isSpace_iff (c : Char) : Aliases.isSpace c = true ↔ Blank c := by
  simp [Aliases.isSpace, Blank]

theorem not_space {c : Char} (h : ¬ Blank c) : Aliases.isSpace c = false := by
  rw [← isSpace_iff] at h
  simpa using h

/-- Aliases joined with `;` are parsed back exactly, in order. -/
theorem C35_aliases_round_trip (as : List Name) (hne : as ≠ [])
    (has : ∀ a ∈ as, a ≠ [] ∧ ∀ c ∈ a, c ≠ ';' ∧ ¬ Blank c) :
    Aliases.unwrap ([';'].intercalate as) = as := by
  induction as with
  | nil => exact absurd rfl hne
  | cons a as ih =>
    cases as with
    | nil =>
      have h := has a (by simp)
      have e : [';'].intercalate [a] = a := by simp [List.intercalate]
      rw [e, Aliases.unwrap_last (Aliases.search_none (fun c hc => (h.2 c hc).1)),
        Aliases.squeeze_of_noSpace]
      intro c hc e
      have := (h.2 c hc).2
      subst e; exact absurd this (by decide)
    | cons b bs =>
      have h := has a (by simp)
      have e : [';'].intercalate (a :: b :: bs) = a ++ ';' :: [';'].intercalate (b :: bs) := by
        simp [List.intercalate, List.intersperse]
      rw [e, Aliases.unwrap_cons (Aliases.search_append h.1 (fun c hc => ⟨(h.2 c hc).1, not_space (h.2 c hc).2⟩) _),
        ih (by simp) (fun x hx => has x (by simp [hx]))]

example : Aliases.unwrap "mu-y-max-1;mu-y-max-2;k".toList
    = ["mu-y-max-1".toList, "mu-y-max-2".toList, "k".toList] :=
  C35_aliases_round_trip ["mu-y-max-1".toList, "mu-y-max-2".toList, "k".toList] (by simp)
    (by decide +kernel)

/-! ### C67: blanks around the aliases of a list -/

/-- White space before each alias but the last, and blanks before and after the last one, are ignored; single blanks inside
are kept. Partial: blanks between an alias and the `;` that ends it are not ignored (`C67_false`). -/
theorem C67_blanks_ignored_partial (first : List (Name × List Name)) (b : Name) (last : List Name)
    (t : Name) (hfirst : ∀ p ∈ first, (∀ c ∈ p.1, Blank c) ∧ AliasWords p.2)
    (hb : ∀ c ∈ b, c = ' ') (hlast : AliasWords last) (ht : ∀ c ∈ t, c = ' ') :
    Aliases.unwrap ((first.flatMap fun p => p.1 ++ [' '].intercalate p.2 ++ [';']) ++
        (b ++ [' '].intercalate last ++ t)) =
      first.map (fun p => [' '].intercalate p.2) ++ [[' '].intercalate last] := by
  have hchar : ∀ ws, AliasWords ws → ∀ c ∈ [' '].intercalate ws,
      c ≠ ';' ∧ Pattern.dot c = true := by
    intro ws hw c hc
    rcases Aliases.mem_words hc with rfl | ⟨w, hw', hc⟩
    · exact ⟨by decide, by decide⟩
    · have h := (hw.2 w hw').2 c hc
      refine ⟨h.1, ?_⟩
      have := not_space h.2
      simp only [Aliases.isSpace, decide_eq_false_iff_not, not_or] at this
      simp [Pattern.dot, this]
  have hspace : ∀ w : Name, (∀ c ∈ w, c ≠ ';' ∧ ¬ Blank c) → ∀ c ∈ w, c ≠ ' ' := by
    intro w hw c hc e
    have := (hw c hc).2
    subst e; exact absurd this (by decide)
  induction first with
  | nil =>
    simp only [List.flatMap_nil, List.nil_append, List.map_nil]
    rw [Aliases.unwrap_last, Aliases.squeeze_blanks hb ht, Aliases.squeeze_words hlast.1]
    · intro w hw
      exact ⟨(hlast.2 w hw).1, hspace w (hlast.2 w hw).2⟩
    · apply Aliases.search_none
      intro c hc
      simp only [List.mem_append] at hc
      rcases hc with (hc | hc) | hc
      · rw [hb c hc]; decide
      · exact (hchar last hlast c hc).1
      · rw [ht c hc]; decide
  | cons p first ih =>
    obtain ⟨h1, h2⟩ := hfirst p (by simp)
    have e : ((p :: first).flatMap fun p => p.1 ++ [' '].intercalate p.2 ++ [';']) ++
          (b ++ [' '].intercalate last ++ t) =
        p.1 ++ ([' '].intercalate p.2 ++ ';' ::
          ((first.flatMap fun p => p.1 ++ [' '].intercalate p.2 ++ [';']) ++
          (b ++ [' '].intercalate last ++ t))) := by simp
    rw [e]
    have hs : ∀ r, Aliases.search ([' '].intercalate p.2 ++ ';' :: r) =
        some ([' '].intercalate p.2, r) := by
      intro r
      have hc := hchar p.2 h2
      obtain ⟨w, ws, e⟩ := List.exists_cons_of_ne_nil h2.1
      have hw := h2.2 w (by simp [e])
      obtain ⟨c, cs, ec⟩ := List.exists_cons_of_ne_nil hw.1
      obtain ⟨tl, etl⟩ : ∃ tl, [' '].intercalate p.2 = c :: tl := by
        rw [e, ec]
        cases ws with
        | nil => exact ⟨cs, by simp [List.intercalate]⟩
        | cons v vs => exact ⟨_, by simp [List.intercalate, List.intersperse]; rfl⟩
      rw [etl] at hc ⊢
      have hcs := not_space (hw.2 c (by simp [ec])).2
      simp only [List.cons_append, Aliases.search, hcs,
        Aliases.upToSemicolon_dots (a := tl) (fun d hd => hc d (by simp [hd])) r]
      simp
    rw [Aliases.unwrap_cons (by rw [Aliases.search_blanks fun c hc => (isSpace_iff c).2 (h1 c hc)]; exact hs _),
      ih (fun q hq => hfirst q (by simp [hq]))]
    simp

/-- `" \ta b; c"` declares the aliases `a b` and `c`. -/
example : Aliases.unwrap " \ta b; c".toList = ["a b".toList, "c".toList] :=
  C67_blanks_ignored_partial [(" \t".toList, ["a".toList, "b".toList])] " ".toList ["c".toList] []
    (by simp [AliasWords]; decide) (by simp) (by simp [AliasWords]; decide) (by simp)

/-- Blanks before a `;` become part of the alias: `"a ;b"` declares `"a "`, not `"a"`. -/
theorem C67_false : Aliases.unwrap "a ;b".toList = ["a ".toList, "b".toList] := by
  decide +kernel

/-! ### C61: a failed lap computation and the stored variables -/

/-- Whatever its outcome, `optimal_laptime` never changes or removes a stored scalar, vector or track. -/
theorem C61_lap_only_adds_partial (lib : Name → Option (Name → Bool)) (n tn : Name)
    (w1 : Kart → Track → Kart) (w2 : F1 → Track → F1) (job : LapJob K) (r : Reg Kart F1 Track K) :
    (∀ m x, r.scalar m = some x →
      (step lib (.optimalLaptime n tn w1 w2 job) r).1.scalar m = some x) ∧
    (∀ m x, r.vector m = some x →
      (step lib (.optimalLaptime n tn w1 w2 job) r).1.vector m = some x) ∧
    (step lib (.optimalLaptime n tn w1 w2 job) r).1.track = r.track := by
  refine ⟨fun m x h => C29_scalar_kept lib m x _ (by simp [CanRemove]) r h,
    fun m x h => C29_vector_kept lib m x _ (by simp [CanRemove]) r h, ?_⟩
  have hsave : ∀ (r : Reg Kart F1 Track K) job, (saveLap r job).1.track = r.track := by
    intro r job
    rcases saveLap_adds r job with e | ⟨-, e⟩
    · rw [e]
    · exact e.track
  simp only [step]
  split <;> [split; split; skip] <;> first
    | rfl
    | exact hsave _ _

/-- A name that is taken stops the call before anything is stored: no scalar, vector or track is added. -/
theorem C61_taken_name_adds_nothing_partial (lib : Name → Option (Name → Bool)) (n tn : Name)
    (w1 : Kart → Track → Kart) (w2 : F1 → Track → F1) (job : LapJob K) (r : Reg Kart F1 Track K)
    (v : Name) (hv : v ∈ job.vars) (ht : (r.scalar (job.pre ++ v)).isSome ∨
      (r.vector (job.pre ++ v)).isSome ∨ (r.track (job.pre ++ v)).isSome) :
    (step lib (.optimalLaptime n tn w1 w2 job) r).1.scalar = r.scalar ∧
    (step lib (.optimalLaptime n tn w1 w2 job) r).1.vector = r.vector ∧
    (step lib (.optimalLaptime n tn w1 w2 job) r).1.track = r.track := by
  have hsave : ∀ r' : Reg Kart F1 Track K, r'.scalar = r.scalar → r'.vector = r.vector →
      r'.track = r.track → (saveLap r' job).1 = r' := by
    intro r' h1 h2 h3
    have htk : lapNamesTaken r' job = true := by
      simp only [lapNamesTaken, List.any_eq_true, Bool.or_eq_true]
      refine ⟨v, hv, .inl ?_⟩
      rcases ht with h | h | h <;> simp [taken, h1, h2, h3, h]
    unfold saveLap
    split
    · rfl
    · rfl
    · simp [htk]
  simp only [step]
  split
  · rename_i v _
    split
    · exact ⟨rfl, rfl, rfl⟩
    · rename_i t _
      rw [hsave { r with kart := overwrite r.kart n (w1 v t) } rfl rfl rfl]; exact ⟨rfl, rfl, rfl⟩
  · rename_i v _ _
    split
    · exact ⟨rfl, rfl, rfl⟩
    · rename_i t _
      rw [hsave { r with f1 := overwrite r.f1 n (w2 v t) } rfl rfl rfl]; exact ⟨rfl, rfl, rfl⟩
  · exact ⟨rfl, rfl, rfl⟩

/-- A kart `car` and a track `trk`. -/
def leftoverReg (k : Kart) (t : Track) : Reg Kart F1 Track K :=
  { kart := put (fun _ => none) "car".toList k, f1 := fun _ => none,
    track := put (fun _ => none) "trk".toList t, scalar := fun _ => none, vector := fun _ => none }

/-- Asks for the lap time and for an integral quantity that does not exist. -/
def leftoverJob (x : K) : LapJob K :=
  { pre := "run/".toList, vars := ["laptime".toList, "integral_quantities.nope".toList],
    sens := false, aliases := [], solved := .ok (), laptime := x, dlaptime := fun _ => x,
    integral := fun _ => none, vec := fun _ => some [], dvec := fun _ _ => [] }

/-- A call that throws can leave variables behind: laptime is stored before an unknown integral
quantity is rejected, so repeating the corrected call is then refused. -/
theorem C61_false_leftover (lib : Name → Option (Name → Bool)) (k : Kart) (t : Track) (x : K) :
    ∃ (r : Reg Kart F1 Track K) (job : LapJob K),
      (step lib (.optimalLaptime "car".toList "trk".toList (fun k _ => k) (fun f _ => f) job) r).2
        = .throw ∧
      stored r "run/laptime".toList = [] ∧
      stored (step lib (.optimalLaptime "car".toList "trk".toList (fun k _ => k) (fun f _ => f) job)
        r).1 "run/laptime".toList = [.scalar x] := by
  exact ⟨leftoverReg k t, leftoverJob x, rfl, rfl, rfl⟩

/-! ### C63: a successful lap computation stores what was asked for -/

/-- After a successful `optimal_laptime` on an existing vehicle and track, every requested variable is
stored under prefix + name with its value: the lap time, the integral quantities, the vectors. -/
theorem C63_lap_saves_requested (lib : Name → Option (Name → Bool)) (n tn : Name)
    (w1 : Kart → Track → Kart) (w2 : F1 → Track → F1) (job : LapJob K) (r : Reg Kart F1 Track K)
    (hveh : (r.kart n).isSome ∨ (r.f1 n).isSome)
    (hok : (step lib (.optimalLaptime n tn w1 w2 job) r).2 = .ok .unit) (v : Name)
    (hv : v ∈ job.vars) :
    let r' := (step lib (.optimalLaptime n tn w1 w2 job) r).1
    (v = "laptime".toList → r'.scalar (job.pre ++ v) = some job.laptime) ∧
    (v ≠ "laptime".toList → ∀ q, v = "integral_quantities.".toList ++ q →
      ∃ x, job.integral q = some x ∧ r'.scalar (job.pre ++ v) = some x) ∧
    (v ≠ "laptime".toList → (∀ q, v ≠ "integral_quantities.".toList ++ q) →
      ∃ x, job.vec v = some x ∧ r'.vector (job.pre ++ v) = some x) := by
  have hsave : ∀ r0 : Reg Kart F1 Track K, (saveLap r0 job).2 = .ok .unit →
      (v = "laptime".toList → (saveLap r0 job).1.scalar (job.pre ++ v) = some job.laptime) ∧
      (v ≠ "laptime".toList → ∀ q, v = "integral_quantities.".toList ++ q →
        ∃ x, job.integral q = some x ∧ (saveLap r0 job).1.scalar (job.pre ++ v) = some x) ∧
      (v ≠ "laptime".toList → (∀ q, v ≠ "integral_quantities.".toList ++ q) →
        ∃ x, job.vec v = some x ∧ (saveLap r0 job).1.vector (job.pre ++ v) = some x) :=
    fun r0 h => saveLap_saves h v hv
  revert hok
  simp only [step]
  rcases h1 : r.kart n with _ | k
  · rcases h2 : r.f1 n with _ | k
    · simp [h1, h2] at hveh
    · rcases r.track tn with _ | t
      · simp
      · exact hsave _
  · rcases r.track tn with _ | t
    · simp
    · exact hsave _

/-- A lap that stores the lap time, an energy and a vector. -/
example : (step (Kart := Unit) (F1 := Unit) (Track := Unit) (K := Int) (fun _ => none)
    (.optimalLaptime "car".toList "trk".toList (fun k _ => k) (fun f _ => f)
      { leftoverJob 90 with
        vars := ["laptime".toList, "integral_quantities.e".toList, "chassis.u".toList],
        integral := fun _ => some 7, vec := fun v => if '/' ∈ v then none else some [1, 2] })
    (leftoverReg () ())).1.vector "run/chassis.u".toList = some [1, 2] := by
  obtain ⟨x, h1, h2⟩ := (C63_lap_saves_requested (Kart := Unit) (F1 := Unit) (Track := Unit)
    (K := Int) (fun _ => none) "car".toList "trk".toList (fun k _ => k) (fun f _ => f)
      { leftoverJob 90 with
        vars := ["laptime".toList, "integral_quantities.e".toList, "chassis.u".toList],
        integral := fun _ => some 7, vec := fun v => if '/' ∈ v then none else some [1, 2] }
    (leftoverReg () ()) (.inl rfl) rfl
    "chassis.u".toList (by simp)).2.2 (by decide)
    (fun q h => absurd (congrArg List.head? h) (by simp))
  have : x = [1, 2] := by simpa using h1.symm
  subst this
  exact h2

/-- With sensitivity analysis, the derivative of the lap time and of every requested vector with
respect to every parameter is stored under prefix + `derivatives/` + name + `/` + parameter. The
requested names contain no `/` (none of the model's outputs does). Integral quantities have no
derivative stored. -/
theorem C63_lap_saves_derivatives (lib : Name → Option (Name → Bool)) (n tn : Name)
    (w1 : Kart → Track → Kart) (w2 : F1 → Track → F1) (job : LapJob K) (r : Reg Kart F1 Track K)
    (hveh : (r.kart n).isSome ∨ (r.f1 n).isSome)
    (hok : (step lib (.optimalLaptime n tn w1 w2 job) r).2 = .ok .unit)
    (hs : job.sens = true) (hsl : ∀ v ∈ job.vars, '/' ∉ v) (v a : Name)
    (hv : v ∈ job.vars) (ha : a ∈ job.aliases) :
    let r' := (step lib (.optimalLaptime n tn w1 w2 job) r).1
    (v = "laptime".toList →
      r'.scalar (job.pre ++ "derivatives/".toList ++ v ++ "/".toList ++ a) =
        some (job.dlaptime a)) ∧
    (v ≠ "laptime".toList → (∀ q, v ≠ "integral_quantities.".toList ++ q) →
      r'.vector (job.pre ++ "derivatives/".toList ++ v ++ "/".toList ++ a) =
        some (job.dvec v a)) := by
  have hn : job.pre ++ "derivatives/".toList ++ v ++ "/".toList ++ a =
      derivativeName job.pre v a := by
    simp [derivativeName]
  rw [hn]
  have hsave : ∀ r0 : Reg Kart F1 Track K, (saveLap r0 job).2 = .ok .unit → _ ∧ _ :=
    fun r0 h => saveLap_derivatives h hs hsl v a hv ha
  revert hok
  simp only [step]
  rcases h1 : r.kart n with _ | k
  · rcases h2 : r.f1 n with _ | k
    · simp [h1, h2] at hveh
    · rcases r.track tn with _ | t
      · simp
      · exact hsave _
  · rcases r.track tn with _ | t
    · simp
    · exact hsave _

example : (step (Kart := Unit) (F1 := Unit) (Track := Unit) (K := Int) (fun _ => none)
    (.optimalLaptime "car".toList "trk".toList (fun k _ => k) (fun f _ => f)
      { leftoverJob 90 with
        vars := ["laptime".toList, "chassis.u".toList], sens := true, aliases := ["mu".toList],
        vec := fun _ => some [1, 2], dvec := fun _ _ => [3, 4] })
    (leftoverReg () ())).1.vector "run/derivatives/chassis.u/mu".toList = some [3, 4] :=
  (C63_lap_saves_derivatives (Kart := Unit) (F1 := Unit) (Track := Unit) (K := Int)
    (fun _ => none) "car".toList "trk".toList (fun k _ => k) (fun f _ => f)
    { leftoverJob 90 with
        vars := ["laptime".toList, "chassis.u".toList], sens := true, aliases := ["mu".toList],
        vec := fun _ => some [1, 2], dvec := fun _ _ => [3, 4] }
    (leftoverReg () ()) (.inl rfl) rfl rfl (by decide)
    "chassis.u".toList "mu".toList (by simp) (by simp)).2 (by decide)
    (fun q h => absurd (congrArg List.head? h) (by simp))

/-! ### C62: names written into the caller's buffers -/

/-- `vehicle_type_get_names` with a buffer of at least one byte: a name is written with its terminator
if it fits, and the call throws otherwise. -/
theorem C62_names_fit_partial (nChar : Int) (name : Name) (hn : 1 ≤ nChar) :
    ((name.length : Int) + 1 ≤ nChar → Buffer.copyName nChar name = .ok (name ++ ['\x00'])) ∧
    (nChar < (name.length : Int) + 1 → Buffer.copyName nChar name = .throw) := by
  have h0 : (0 : Int) ≤ nChar := by omega
  have hz : nChar.toNat ≠ 0 := by omega
  simp only [Buffer.copyName, Buffer.toSize, if_pos h0, if_neg hz, Buffer.strcpy]
  constructor
  · intro h; rw [if_neg (by omega), if_pos (by omega)]
  · intro h; rw [if_pos (by omega)]

/-- With `n_char = 0` the unsigned subtraction wraps and every name is written. -/
theorem C62_false_zero_size (name : Name) (h : name.length < 2 ^ 63) :
    Buffer.copyName 0 name = .ub := by
  have h1 : ¬ name.length > 2 ^ 64 - 1 := by omega
  have h2 : name.length ≤ 18446744073709551615 := by omega
  simp [Buffer.copyName, Buffer.toSize, Buffer.strcpy, h1, h2]

/-- `variable_type` ignores the buffer size: a buffer shorter than the type name is overrun. -/
theorem C62_false_variable_type (strLenMax : Int) (type : Name) (h : strLenMax ≤ type.length) :
    Buffer.variableTypeCopy strLenMax type = .ub := by
  have : ¬ type.length + 1 ≤ strLenMax.toNat := by omega
  simp [Buffer.variableTypeCopy, Buffer.strcpy, this]

example : Buffer.copyName 8 "road.s".toList = .ok ("road.s".toList ++ ['\x00']) :=
  (C62_names_fit_partial 8 "road.s".toList (by decide)).1 (by decide)

end Verif.Registry
