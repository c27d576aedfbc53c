import Verif.Spec.Registry

/-! # Lemmas about the tables of the C interface -/

set_option autoImplicit false

namespace Verif.Registry

variable {Kart F1 Track K : Type}

theorem put_ne {V : Type} (t : Table V) {k n : Name} (v : V) (h : n ≠ k) : put t k v n = t n := by
  simp [put, h]

theorem put_self {V : Type} (t : Table V) {k : Name} (v : V) (h : t k = none) :
    put t k v k = some v := by simp [put, h]

theorem put_of_some {V : Type} (t : Table V) {k n : Name} {v x : V} (h : t n = some x) :
    put t k v n = some x := by
  by_cases hk : n = k
  · subst hk; simp [put, h]
  · rw [put_ne _ _ hk, h]

theorem not_taken_iff {r : Reg Kart F1 Track K} {n : Name} :
    taken r n = false ↔ r.kart n = none ∧ r.f1 n = none ∧ r.track n = none ∧ r.scalar n = none ∧
      r.vector n = none := by
  simp [taken, and_assoc]

theorem not_taken_iff_stored {r : Reg Kart F1 Track K} {n : Name} :
    taken r n = false ↔ stored r n = [] := by
  rw [not_taken_iff]
  simp only [stored, List.append_eq_nil_iff, List.map_eq_nil_iff, Option.toList_eq_nil_iff, and_assoc]

theorem taken_iff_stored {r : Reg Kart F1 Track K} {n : Name} :
    taken r n = true ↔ stored r n ≠ [] := by
  rw [Ne, ← not_taken_iff_stored]; simp

theorem stored_congr {r r' : Reg Kart F1 Track K} {n : Name} (h1 : r'.kart n = r.kart n)
    (h2 : r'.f1 n = r.f1 n) (h3 : r'.track n = r.track n) (h4 : r'.scalar n = r.scalar n)
    (h5 : r'.vector n = r.vector n) : stored r' n = stored r n := by
  simp [stored, h1, h2, h3, h4, h5]

theorem unique_of_fresh {r r' : Reg Kart F1 Track K} {k : Name} (hu : Unique r)
    (hne : ∀ n, n ≠ k → stored r' n = stored r n) (hk : (stored r' k).length ≤ 1) : Unique r' := by
  intro n
  by_cases h : n = k
  · subst h; exact hk
  · rw [hne n h]; exact hu n

theorem stored_putKart {r : Reg Kart F1 Track K} {k : Name} {x : Kart} (h : taken r k = false)
    (n : Name) : stored { r with kart := put r.kart k x } n
      = if n = k then [.kart x] else stored r n := by
  have h := not_taken_iff.1 h
  split
  · rename_i hn; subst hn; simp [stored, put, h]
  · rename_i hn; exact stored_congr (put_ne _ _ hn) rfl rfl rfl rfl

theorem stored_putF1 {r : Reg Kart F1 Track K} {k : Name} {x : F1} (h : taken r k = false)
    (n : Name) : stored { r with f1 := put r.f1 k x } n
      = if n = k then [.f1 x] else stored r n := by
  have h := not_taken_iff.1 h
  split
  · rename_i hn; subst hn; simp [stored, put, h]
  · rename_i hn; exact stored_congr rfl (put_ne _ _ hn) rfl rfl rfl

theorem stored_putTrack {r : Reg Kart F1 Track K} {k : Name} {x : Track} (h : taken r k = false)
    (n : Name) : stored { r with track := put r.track k x } n
      = if n = k then [.track x] else stored r n := by
  have h := not_taken_iff.1 h
  split
  · rename_i hn; subst hn; simp [stored, put, h]
  · rename_i hn; exact stored_congr rfl rfl (put_ne _ _ hn) rfl rfl

theorem stored_putScalar {r : Reg Kart F1 Track K} {k : Name} {x : K} (h : taken r k = false)
    (n : Name) : stored { r with scalar := put r.scalar k x } n
      = if n = k then [.scalar x] else stored r n := by
  have h := not_taken_iff.1 h
  split
  · rename_i hn; subst hn; simp [stored, put, h]
  · rename_i hn; exact stored_congr rfl rfl rfl (put_ne _ _ hn) rfl

theorem stored_putVector {r : Reg Kart F1 Track K} {k : Name} {x : List K} (h : taken r k = false)
    (n : Name) : stored { r with vector := put r.vector k x } n
      = if n = k then [.vector x] else stored r n := by
  have h := not_taken_iff.1 h
  split
  · rename_i hn; subst hn; simp [stored, put, h]
  · rename_i hn; exact stored_congr rfl rfl rfl rfl (put_ne _ _ hn)

theorem unique_of_stored_if {r r' : Reg Kart F1 Track K} {k : Name} {v : Value Kart F1 Track K}
    (hu : Unique r) (h : ∀ n, stored r' n = if n = k then [v] else stored r n) : Unique r' := by
  intro n
  rw [h n]
  split
  · simp
  · exact hu n

/-- Replacing an element in place keeps uniqueness. -/
theorem unique_overwriteKart {r : Reg Kart F1 Track K} {k : Name} {x y : Kart}
    (hx : r.kart k = some x) (hu : Unique r) : Unique { r with kart := overwrite r.kart k y } := by
  intro n
  have := hu n
  by_cases h : n = k
  · subst h; simp [stored, overwrite, hx] at this ⊢; omega
  · have e : overwrite r.kart k y n = r.kart n := by simp [overwrite, h]
    exact (stored_congr (r := r) (r' := { r with kart := overwrite r.kart k y }) e rfl rfl rfl rfl) ▸ this

theorem unique_overwriteF1 {r : Reg Kart F1 Track K} {k : Name} {x y : F1}
    (hx : r.f1 k = some x) (hu : Unique r) : Unique { r with f1 := overwrite r.f1 k y } := by
  intro n
  have := hu n
  by_cases h : n = k
  · subst h; simp [stored, overwrite, hx] at this ⊢; omega
  · have e : overwrite r.f1 k y n = r.f1 n := by simp [overwrite, h]
    exact (stored_congr (r := r) (r' := { r with f1 := overwrite r.f1 k y }) rfl e rfl rfl rfl) ▸ this

theorem unique_overwriteTrack {r : Reg Kart F1 Track K} {k : Name} {x y : Track}
    (hx : r.track k = some x) (hu : Unique r) :
    Unique { r with track := overwrite r.track k y } := by
  intro n
  have := hu n
  by_cases h : n = k
  · subst h; simp [stored, overwrite, hx] at this ⊢; omega
  · have e : overwrite r.track k y n = r.track n := by simp [overwrite, h]
    exact (stored_congr (r := r) (r' := { r with track := overwrite r.track k y }) rfl rfl e rfl rfl) ▸ this

/-! ### Several insertions -/

theorem foldl_put {V : Type} (l : List (Name × V)) (t : Table V) (n : Name) :
    (∀ x, t n = some x → (l.foldl (fun t p => put t p.1 p.2) t) n = some x) ∧
    (t n = none → n ∉ l.map Prod.fst → (l.foldl (fun t p => put t p.1 p.2) t) n = none) := by
  induction l generalizing t with
  | nil => simp
  | cons p ps ih =>
    simp only [List.foldl_cons, List.map_cons, List.mem_cons, not_or]
    refine ⟨fun x hx => (ih _).1 x (put_of_some t hx), fun hn hm => (ih _).2 ?_ hm.2⟩
    rw [put_ne _ _ hm.1, hn]

/-- Insertion of scalars named in `S` and vectors named in `V`, and nothing else. -/
structure Adds (r r' : Reg Kart F1 Track K) (S V : Name → Prop) : Prop where
  kart : r'.kart = r.kart
  f1 : r'.f1 = r.f1
  track : r'.track = r.track
  scalarKeep : ∀ n x, r.scalar n = some x → r'.scalar n = some x
  scalarNew : ∀ n, r.scalar n = none → ¬ S n → r'.scalar n = none
  vectorKeep : ∀ n x, r.vector n = some x → r'.vector n = some x
  vectorNew : ∀ n, r.vector n = none → ¬ V n → r'.vector n = none

theorem Adds.refl (r : Reg Kart F1 Track K) (S V : Name → Prop) : Adds r r S V :=
  ⟨rfl, rfl, rfl, fun _ _ h => h, fun _ h _ => h, fun _ _ h => h, fun _ h _ => h⟩

theorem Adds.trans {r r' r'' : Reg Kart F1 Track K} {S V : Name → Prop} (h : Adds r r' S V)
    (h' : Adds r' r'' S V) : Adds r r'' S V :=
  ⟨h'.kart.trans h.kart, h'.f1.trans h.f1, h'.track.trans h.track,
    fun n x hx => h'.scalarKeep n x (h.scalarKeep n x hx),
    fun n hn hs => h'.scalarNew n (h.scalarNew n hn hs) hs,
    fun n x hx => h'.vectorKeep n x (h.vectorKeep n x hx),
    fun n hn hs => h'.vectorNew n (h.vectorNew n hn hs) hs⟩

theorem adds_putScalars (r : Reg Kart F1 Track K) (l : List (Name × K)) (S V : Name → Prop)
    (h : ∀ p ∈ l, S p.1) : Adds r (putScalars r l) S V := by
  refine ⟨rfl, rfl, rfl, fun n x hx => (foldl_put l _ n).1 x hx, fun n hn hs =>
    (foldl_put l _ n).2 hn ?_, fun _ _ h => h, fun _ h _ => h⟩
  intro hm
  obtain ⟨p, hp, rfl⟩ := List.mem_map.1 hm
  exact hs (h p hp)

theorem adds_putVectors (r : Reg Kart F1 Track K) (l : List (Name × List K)) (S V : Name → Prop)
    (h : ∀ p ∈ l, V p.1) : Adds r (putVectors r l) S V := by
  refine ⟨rfl, rfl, rfl, fun _ _ h => h, fun _ h _ => h, fun n x hx => (foldl_put l _ n).1 x hx,
    fun n hn hs => (foldl_put l _ n).2 hn ?_⟩
  intro hm
  obtain ⟨p, hp, rfl⟩ := List.mem_map.1 hm
  exact hs (h p hp)

theorem Adds.unique {r r' : Reg Kart F1 Track K} {S V : Name → Prop} (h : Adds r r' S V)
    (hu : Unique r) (hS : ∀ n, S n → taken r n = false) (hV : ∀ n, V n → taken r n = false)
    (hSV : ∀ n, S n → ¬ V n) : Unique r' := by
  intro n
  by_cases ht : taken r n = false
  · have hf := not_taken_iff.1 ht
    have h1 : r'.kart n = none := by rw [h.kart]; exact hf.1
    have h2 : r'.f1 n = none := by rw [h.f1]; exact hf.2.1
    have h3 : r'.track n = none := by rw [h.track]; exact hf.2.2.1
    by_cases hs : S n
    · have h5 := h.vectorNew n hf.2.2.2.2 (hSV n hs)
      simp only [stored, h1, h2, h3, h5]
      cases r'.scalar n <;> simp
    · have h4 := h.scalarNew n hf.2.2.2.1 hs
      simp only [stored, h1, h2, h3, h4]
      cases r'.vector n <;> simp
  · have hs : ¬ S n := fun x => ht (hS n x)
    have hv : ¬ V n := fun x => ht (hV n x)
    have e4 : r'.scalar n = r.scalar n := by
      cases hx : r.scalar n with
      | none => exact h.scalarNew n hx hs
      | some x => exact h.scalarKeep n x hx
    have e5 : r'.vector n = r.vector n := by
      cases hx : r.vector n with
      | none => exact h.vectorNew n hx hv
      | some x => exact h.vectorKeep n x hx
    rw [stored_congr (by rw [h.kart]) (by rw [h.f1]) (by rw [h.track]) e4 e5]
    exact hu n

/-! ### Saving an optimal lap -/

/-- Names under which a lap saves scalars. -/
def LapScalarName (job : LapJob K) (n : Name) : Prop :=
  ("laptime".toList ∈ job.vars ∧ (n = job.pre ++ "laptime".toList ∨
    (job.sens = true ∧ ∃ a ∈ job.aliases, n = derivativeName job.pre "laptime".toList a))) ∨
  ∃ v ∈ integralVars job, n = job.pre ++ v

/-- Names under which a lap saves vectors. -/
def LapVectorName (job : LapJob K) (n : Name) : Prop :=
  ∃ v ∈ vectorVars job, (∀ w ∈ vectorVars job, (job.vec w).isSome) ∧ (n = job.pre ++ v ∨
    (job.sens = true ∧ ∃ a ∈ job.aliases, n = derivativeName job.pre v a))

theorem lapScalar_free {r : Reg Kart F1 Track K} {job : LapJob K} (h : lapNamesTaken r job = false)
    {n : Name} (hn : LapScalarName job n) : taken r n = false := by
  simp only [lapNamesTaken, List.any_eq_false, Bool.or_eq_true, Bool.and_eq_true, not_or,
    not_and, Bool.not_eq_true] at h
  rcases hn with ⟨hl, rfl | ⟨hs, a, ha, rfl⟩⟩ | ⟨v, hv, rfl⟩
  · exact (h _ hl).1
  · have := (h _ hl).2 hs
    exact this a ha
  · exact (h _ (List.mem_of_mem_filter hv)).1

theorem lapVector_free {r : Reg Kart F1 Track K} {job : LapJob K} (h : lapNamesTaken r job = false)
    {n : Name} (hn : LapVectorName job n) : taken r n = false := by
  simp only [lapNamesTaken, List.any_eq_false, Bool.or_eq_true, Bool.and_eq_true, not_or,
    not_and, Bool.not_eq_true] at h
  obtain ⟨v, hv, -, rfl | ⟨hs, a, ha, rfl⟩⟩ := hn
  · exact (h _ (List.mem_of_mem_filter hv)).1
  · exact (h _ (List.mem_of_mem_filter hv)).2 hs a ha

theorem split_at_slash {a b x y : Name} (ha : '/' ∉ a) (hb : '/' ∉ b)
    (h : a ++ '/' :: x = b ++ '/' :: y) : a = b := by
  induction a generalizing b with
  | nil =>
    cases b with
    | nil => rfl
    | cons c cs =>
      simp only [List.nil_append, List.cons_append, List.cons.injEq] at h
      exact absurd (h.1 ▸ List.mem_cons_self) hb
  | cons c cs ih =>
    cases b with
    | nil =>
      simp only [List.nil_append, List.cons_append, List.cons.injEq] at h
      exact absurd (h.1 ▸ List.mem_cons_self) ha
    | cons d ds =>
      simp only [List.cons_append, List.cons.injEq] at h
      rw [h.1, ih (fun hm => ha (List.mem_cons_of_mem _ hm))
        (fun hm => hb (List.mem_cons_of_mem _ hm)) h.2]

theorem lap_disjoint {job : LapJob K} (hno : OutputNamesWithoutSlash job) {n : Name}
    (hs : LapScalarName job n) : ¬ LapVectorName job n := by
  rintro ⟨v, hv, hall, hvn⟩
  have hslash : '/' ∉ v := hno v (hall v hv)
  have hv' := List.mem_filter.1 hv
  simp only [ne_eq, decide_eq_true_eq] at hv'
  obtain ⟨-, hvl, hvi⟩ := hv'
  have hder : ∀ (x y : Name), "derivatives/".toList ++ x ++ '/' :: y ≠ v := by
    rintro x y rfl; exact hslash (by simp)
  have hder' : ∀ (x y z : Name), derivativeName job.pre x y = job.pre ++ z →
      "derivatives/".toList ++ x ++ '/' :: y = z := by
    intro x y z h
    simp only [derivativeName, List.append_assoc] at h
    simpa only [List.append_assoc] using List.append_cancel_left h
  rcases hs with ⟨-, e | ⟨-, a, -, e⟩⟩ | ⟨w, hw, e⟩
  · rcases hvn with h | ⟨-, b, -, h⟩
    · exact hvl (List.append_cancel_left (e.symm.trans h)).symm
    · have h2 := hder' _ _ _ (h.symm.trans e)
      have h3 := congrArg List.head? h2
      simp at h3
  · rcases hvn with h | ⟨-, b, -, h⟩
    · exact hder _ a (hder' _ _ _ (e.symm.trans h))
    · have h2 := e.symm.trans h
      simp only [derivativeName, List.append_assoc] at h2
      exact hvl (split_at_slash (by decide) hslash
        (List.append_cancel_left (List.append_cancel_left h2))).symm
  · have hw' := (List.mem_filter.1 hw).2
    simp only [decide_eq_true_eq] at hw'
    rcases hvn with h | ⟨-, b, -, h⟩
    · rw [List.append_cancel_left (e.symm.trans h)] at hw'
      rw [hw'.2] at hvi; exact absurd hvi (by simp)
    · have h2 := hder' _ _ _ (h.symm.trans e)
      obtain ⟨t, ht⟩ := List.isPrefixOf_iff_prefix.1 hw'.2
      rw [← ht] at h2
      have h3 := congrArg List.head? h2
      have h4 : (integralPrefix ++ t).head? = some 'i' := by
        have h6 : integralPrefix.head? = some 'i' := by decide +kernel
        rw [List.head?_append, h6]; rfl
      have h5 : ("derivatives/".toList ++ v ++ '/' :: b).head? = some 'd' := by simp
      rw [h4, h5] at h3
      exact absurd h3 (by decide)

theorem integralScalars_names (job : LapJob K) (vs : List Name) :
    ∀ p ∈ (integralScalars job vs).1, ∃ v ∈ vs, p.1 = job.pre ++ v := by
  induction vs with
  | nil => simp [integralScalars]
  | cons v vs ih =>
    intro p hp
    simp only [integralScalars] at hp
    split at hp
    · simp at hp
    · simp only [List.mem_cons] at hp
      rcases hp with rfl | hp
      · exact ⟨v, by simp, rfl⟩
      · obtain ⟨w, hw, h⟩ := ih p hp
        exact ⟨w, by simp [hw], h⟩

theorem vectorPairs_names (job : LapJob K) (vs : List Name) {l : List (Name × List K)}
    (h : vectorPairs job vs = some l) :
    (∀ p ∈ l, ∃ v ∈ vs, p.1 = job.pre ++ v) ∧ ∀ v ∈ vs, (job.vec v).isSome := by
  induction vs generalizing l with
  | nil => simp [vectorPairs] at h; subst h; simp
  | cons v vs ih =>
    simp only [vectorPairs] at h
    split at h
    · rename_i x rest hx hr
      simp only [Option.some.injEq] at h
      subst h
      obtain ⟨h1, h2⟩ := ih hr
      refine ⟨?_, ?_⟩
      · intro p hp
        rcases List.mem_cons.1 hp with rfl | hp
        · exact ⟨v, by simp, rfl⟩
        · obtain ⟨w, hw, e⟩ := h1 p hp
          exact ⟨w, by simp [hw], e⟩
      · intro w hw
        rcases List.mem_cons.1 hw with rfl | hw
        · simp [hx]
        · exact h2 w hw
    · simp at h

theorem saveLap_adds (r : Reg Kart F1 Track K) (job : LapJob K) :
    (saveLap r job).1 = r ∨ (lapNamesTaken r job = false ∧
      Adds r (saveLap r job).1 (LapScalarName job) (LapVectorName job)) := by
  unfold saveLap
  split
  · exact .inl rfl
  · exact .inl rfl
  · split
    · exact .inl rfl
    · rename_i _ _ hnt
      refine .inr ⟨by simpa using hnt, ?_⟩
      have a1 : Adds r (putScalars r (laptimeScalars job)) (LapScalarName job)
          (LapVectorName job) := by
        apply adds_putScalars
        intro p hp
        unfold laptimeScalars at hp
        split at hp
        · rename_i hl
          rcases List.mem_cons.1 hp with rfl | hp
          · exact .inl ⟨hl, .inl rfl⟩
          · split at hp
            · rename_i hs
              obtain ⟨a, ha, rfl⟩ := List.mem_map.1 hp
              exact .inl ⟨hl, .inr ⟨hs, a, ha, rfl⟩⟩
            · simp at hp
        · simp at hp
      have a2 : Adds r (putScalars (putScalars r (laptimeScalars job))
          (integralScalars job (integralVars job)).1) (LapScalarName job) (LapVectorName job) := by
        refine a1.trans (adds_putScalars _ _ _ _ ?_)
        intro p hp
        obtain ⟨v, hv, e⟩ := integralScalars_names job _ p hp
        exact .inr ⟨v, hv, e⟩
      dsimp only
      split
      · exact a2
      · split
        · exact a2
        · rename_i vs hvs
          obtain ⟨h1, h2⟩ := vectorPairs_names job _ hvs
          refine a2.trans ((adds_putVectors _ _ _ _ ?_).trans (adds_putVectors _ _ _ _ ?_))
          · intro p hp
            obtain ⟨v, hv, e⟩ := h1 p hp
            exact ⟨v, hv, h2, .inl e⟩
          · intro p hp
            unfold vectorDerivatives at hp
            split at hp
            · rename_i hs
              obtain ⟨v, hv, hp⟩ := List.mem_flatMap.1 hp
              obtain ⟨a, ha, rfl⟩ := List.mem_map.1 hp
              exact ⟨v, hv, h2, .inr ⟨hs, a, ha, rfl⟩⟩
            · simp at hp

theorem saveLap_unique {r : Reg Kart F1 Track K} {job : LapJob K} (hu : Unique r)
    (hno : OutputNamesWithoutSlash job) : Unique (saveLap r job).1 := by
  rcases saveLap_adds r job with h | ⟨hf, h⟩
  · rw [h]; exact hu
  · exact h.unique hu (fun _ => lapScalar_free hf) (fun _ => lapVector_free hf)
      (fun _ => lap_disjoint hno)

/-! ### The circuit preprocessor -/

theorem saveOutputs_adds (pre : Name) (data : Name → Res (List K)) (os : List Name)
    (r : Reg Kart F1 Track K) (V : Name → Prop) (hV : ∀ o ∈ os, r.vector (pre ++ o) = none → V (pre ++ o)) :
    Adds r (saveOutputs pre data os r).1 (fun _ => False) V := by
  induction os generalizing r with
  | nil => exact Adds.refl _ _ _
  | cons o os ih =>
    simp only [saveOutputs]
    split
    · exact Adds.refl _ _ _
    · rename_i hn
      have hnone : r.vector (pre ++ o) = none := by simpa using hn
      rcases data o with v | _ | _
      rotate_left
      · exact Adds.refl _ _ _
      · exact Adds.refl _ _ _
      refine Adds.trans (r' := { r with vector := put r.vector (pre ++ o) v }) ?_ (ih _ ?_)
      · refine ⟨rfl, rfl, rfl, fun _ _ h => h, fun _ h _ => h,
          fun n x hx => put_of_some _ hx, fun n hn' hv => ?_⟩
        have : n ≠ pre ++ o := by
          rintro rfl; exact hv (hV o (by simp) hnone)
        simp only [put_ne _ _ this, hn']
      · intro o' ho' h'
        apply hV o' (by simp [ho'])
        by_contra hne
        obtain ⟨x, hx⟩ := Option.ne_none_iff_exists'.1 hne
        simp only [put_of_some _ hx] at h'
        exact absurd h' (by simp)

theorem runCircuit_unique {r : Reg Kart F1 Track K} {job : CircuitJob Track K} (hu : Unique r)
    (hc : CircuitNamesApart r job) : Unique (runCircuit r job).1 := by
  obtain ⟨hc1, hc2, hc3⟩ := hc
  unfold runCircuit
  split
  · exact hu
  · exact hu
  · rename_i t _
    dsimp only
    split
    · exact hu
    · rename_i r1 hr1
      have hu1 : Unique r1 := by
        split at hr1
        · cases hr1; exact hu
        · rename_i n hn
          split at hr1
          · simp at hr1
          · rename_i hnone
            cases hr1
            have hfree := not_taken_iff_stored.2 (hc1 n hn (by simpa using hnone))
            exact unique_of_stored_if hu (fun m => stored_putTrack hfree m)
      split
      · exact hu1
      · exact hu1
      · split
        · exact hu1
        · rename_i pre hpre
          have hfree : ∀ o ∈ circuitOutputs, r1.vector (pre ++ o) = none →
              taken r1 (pre ++ o) = false := by
            intro o ho hv
            split at hr1
            · cases hr1; exact not_taken_iff_stored.2 (hc2 pre o hpre ho hv)
            · rename_i n hn
              split at hr1
              · simp at hr1
              · rename_i hnone
                cases hr1
                have h0 := hc2 pre o hpre ho hv
                have hfree := not_taken_iff_stored.2 (hc1 n hn (by simpa using hnone))
                rw [not_taken_iff_stored, stored_putTrack hfree,
                  if_neg (fun e => hc3 n pre o hn hpre ho e.symm), h0]
          have := saveOutputs_adds pre job.data circuitOutputs r1
            (fun n => taken r1 n = false) hfree
          exact this.unique hu1 (fun _ h => h.elim) (fun _ h => h) (fun _ h => h.elim)

end Verif.Registry

namespace Verif.Registry

variable {Kart F1 Track K : Type}

/-- The five ways a copy can succeed. -/
theorem copy_cases (lib : Name → Option (Name → Bool)) {r : Reg Kart F1 Track K} {old new : Name}
    (ht : taken r new = false) :
    (∃ x, r.kart old = some x ∧
      step lib (.copy old new) r = ({ r with kart := put r.kart new x }, .ok .unit)) ∨
    (∃ x, r.kart old = none ∧ r.f1 old = some x ∧
      step lib (.copy old new) r = ({ r with f1 := put r.f1 new x }, .ok .unit)) ∨
    (∃ x, r.kart old = none ∧ r.f1 old = none ∧ r.track old = some x ∧
      step lib (.copy old new) r = ({ r with track := put r.track new x }, .ok .unit)) ∨
    (∃ x, r.kart old = none ∧ r.f1 old = none ∧ r.track old = none ∧ r.vector old = some x ∧
      step lib (.copy old new) r = ({ r with vector := put r.vector new x }, .ok .unit)) ∨
    (∃ x, r.kart old = none ∧ r.f1 old = none ∧ r.track old = none ∧ r.vector old = none ∧
      r.scalar old = some x ∧
      step lib (.copy old new) r = ({ r with scalar := put r.scalar new x }, .ok .unit)) ∨
    (stored r old = [] ∧ step lib (.copy old new) r = (r, .throw)) := by
  simp only [step, ht, Bool.false_eq_true, if_false]
  rcases h1 : r.kart old with _ | x
  · rcases h2 : r.f1 old with _ | x
    · rcases h3 : r.track old with _ | x
      · rcases h4 : r.vector old with _ | x
        · rcases h5 : r.scalar old with _ | x
          · exact .inr (.inr (.inr (.inr (.inr ⟨by simp [stored, h1, h2, h3, h4, h5], rfl⟩))))
          · exact .inr (.inr (.inr (.inr (.inl ⟨x, rfl, rfl, rfl, rfl, rfl, rfl⟩))))
        · exact .inr (.inr (.inr (.inl ⟨x, rfl, rfl, rfl, rfl, rfl⟩)))
      · exact .inr (.inr (.inl ⟨x, rfl, rfl, rfl, rfl⟩))
    · exact .inr (.inl ⟨x, rfl, rfl, rfl⟩)
  · exact .inl ⟨x, rfl, rfl⟩

/-- The five ways a move can succeed. -/
theorem move_cases (lib : Name → Option (Name → Bool)) {r : Reg Kart F1 Track K} {old new : Name}
    (ht : taken r new = false) :
    (∃ x, r.kart old = some x ∧
      step lib (.move old new) r = ({ r with kart := drop (put r.kart new x) old }, .ok .unit)) ∨
    (∃ x, r.kart old = none ∧ r.f1 old = some x ∧
      step lib (.move old new) r = ({ r with f1 := drop (put r.f1 new x) old }, .ok .unit)) ∨
    (∃ x, r.kart old = none ∧ r.f1 old = none ∧ r.track old = some x ∧
      step lib (.move old new) r = ({ r with track := drop (put r.track new x) old }, .ok .unit)) ∨
    (∃ x, r.kart old = none ∧ r.f1 old = none ∧ r.track old = none ∧ r.vector old = some x ∧
      step lib (.move old new) r = ({ r with vector := drop (put r.vector new x) old }, .ok .unit)) ∨
    (∃ x, r.kart old = none ∧ r.f1 old = none ∧ r.track old = none ∧ r.vector old = none ∧
      r.scalar old = some x ∧
      step lib (.move old new) r = ({ r with scalar := drop (put r.scalar new x) old }, .ok .unit)) ∨
    (stored r old = [] ∧ step lib (.move old new) r = (r, .throw)) := by
  simp only [step, ht, Bool.false_eq_true, if_false]
  rcases h1 : r.kart old with _ | x
  · rcases h2 : r.f1 old with _ | x
    · rcases h3 : r.track old with _ | x
      · rcases h4 : r.vector old with _ | x
        · rcases h5 : r.scalar old with _ | x
          · exact .inr (.inr (.inr (.inr (.inr ⟨by simp [stored, h1, h2, h3, h4, h5], rfl⟩))))
          · exact .inr (.inr (.inr (.inr (.inl ⟨x, rfl, rfl, rfl, rfl, rfl, rfl⟩))))
        · exact .inr (.inr (.inr (.inl ⟨x, rfl, rfl, rfl, rfl, rfl⟩)))
      · exact .inr (.inr (.inl ⟨x, rfl, rfl, rfl, rfl⟩))
    · exact .inr (.inl ⟨x, rfl, rfl, rfl⟩)
  · exact .inl ⟨x, rfl, rfl⟩

theorem copy_stored (lib : Name → Option (Name → Bool)) {r : Reg Kart F1 Track K} {old new : Name}
    (ht : taken r new = false) :
    (∃ v, (Unique r → stored r old = [v]) ∧ stored r old ≠ [] ∧
      (step lib (.copy old new) r).2 = .ok .unit ∧
      ∀ n, stored (step lib (.copy old new) r).1 n = if n = new then [v] else stored r n) ∨
    (stored r old = [] ∧ step lib (.copy old new) r = (r, .throw)) := by
  rcases copy_cases lib ht (old := old) with ⟨x, h1, e⟩ | ⟨x, h1, h2, e⟩ | ⟨x, h1, h2, h3, e⟩ |
    ⟨x, h1, h2, h3, h4, e⟩ | ⟨x, h1, h2, h3, h4, h5, e⟩ | ⟨h, e⟩
  · refine .inl ⟨.kart x, fun hu => ?_, by simp [stored, h1], by rw [e], ?_⟩
    · have := hu old
      cases h2 : r.f1 old <;> cases h3 : r.track old <;> cases h4 : r.scalar old <;>
        cases h5 : r.vector old <;> simp [stored, h1, h2, h3, h4, h5] at this ⊢
    · rw [e]; exact stored_putKart ht
  · refine .inl ⟨.f1 x, fun hu => ?_, by simp [stored, h2], by rw [e], ?_⟩
    · have := hu old
      cases h3 : r.track old <;> cases h4 : r.scalar old <;>
        cases h5 : r.vector old <;> simp [stored, h1, h2, h3, h4, h5] at this ⊢
    · rw [e]; exact stored_putF1 ht
  · refine .inl ⟨.track x, fun hu => ?_, by simp [stored, h3], by rw [e], ?_⟩
    · have := hu old
      cases h4 : r.scalar old <;>
        cases h5 : r.vector old <;> simp [stored, h1, h2, h3, h4, h5] at this ⊢
    · rw [e]; exact stored_putTrack ht
  · refine .inl ⟨.vector x, fun hu => ?_, by simp [stored, h4], by rw [e], ?_⟩
    · have := hu old
      cases h5 : r.scalar old with
      | none => simp [stored, h1, h2, h3, h4, h5]
      | some y => simp [stored, h1, h2, h3, h4, h5] at this
    · rw [e]; exact stored_putVector ht
  · refine .inl ⟨.scalar x, fun hu => ?_, by simp [stored, h5], by rw [e], ?_⟩
    · simp [stored, h1, h2, h3, h4, h5]
    · rw [e]; exact stored_putScalar ht
  · exact .inr ⟨h, e⟩

theorem stored_remove {r : Reg Kart F1 Track K} {old n : Name} (h : n ≠ old) :
    stored { r with kart := drop r.kart old } n = stored r n ∧
    stored { r with f1 := drop r.f1 old } n = stored r n ∧
    stored { r with track := drop r.track old } n = stored r n ∧
    stored { r with scalar := drop r.scalar old } n = stored r n ∧
    stored { r with vector := drop r.vector old } n = stored r n := by
  refine ⟨?_, ?_, ?_, ?_, ?_⟩ <;> simp [stored, drop, h]

theorem stored_remove_le {r : Reg Kart F1 Track K} {old n : Name} :
    (stored { r with kart := drop r.kart old } n).length ≤ (stored r n).length ∧
    (stored { r with f1 := drop r.f1 old } n).length ≤ (stored r n).length ∧
    (stored { r with track := drop r.track old } n).length ≤ (stored r n).length ∧
    (stored { r with scalar := drop r.scalar old } n).length ≤ (stored r n).length ∧
    (stored { r with vector := drop r.vector old } n).length ≤ (stored r n).length := by
  refine ⟨?_, ?_, ?_, ?_, ?_⟩ <;> by_cases h : n = old <;> simp [stored, drop, h]

theorem move_unique (lib : Name → Option (Name → Bool)) {r : Reg Kart F1 Track K} {old new : Name}
    (hu : Unique r) (ht : taken r new = false) : Unique (step lib (.move old new) r).1 := by
  rcases move_cases lib ht (old := old) with ⟨x, h1, e⟩ | ⟨x, h1, h2, e⟩ | ⟨x, h1, h2, h3, e⟩ |
    ⟨x, h1, h2, h3, h4, e⟩ | ⟨x, h1, h2, h3, h4, h5, e⟩ | ⟨h, e⟩
  · rw [e]; exact fun n => Nat.le_trans (stored_remove_le (r := { r with kart := put r.kart new x })).1
      (unique_of_stored_if hu (stored_putKart ht) n)
  · rw [e]; exact fun n => Nat.le_trans (stored_remove_le (r := { r with f1 := put r.f1 new x })).2.1
      (unique_of_stored_if hu (stored_putF1 ht) n)
  · rw [e]; exact fun n => Nat.le_trans (stored_remove_le (r := { r with track := put r.track new x })).2.2.1
      (unique_of_stored_if hu (stored_putTrack ht) n)
  · rw [e]; exact fun n => Nat.le_trans
      (stored_remove_le (r := { r with vector := put r.vector new x })).2.2.2.2
      (unique_of_stored_if hu (stored_putVector ht) n)
  · rw [e]; exact fun n => Nat.le_trans
      (stored_remove_le (r := { r with scalar := put r.scalar new x })).2.2.2.1
      (unique_of_stored_if hu (stored_putScalar ht) n)
  · rw [e]; exact hu

theorem move_stored (lib : Name → Option (Name → Bool)) {r : Reg Kart F1 Track K} {old new : Name}
    (hu : Unique r) (ht : taken r new = false) (hold : stored r old ≠ []) :
    (step lib (.move old new) r).2 = .ok .unit ∧
      ∀ n, stored (step lib (.move old new) r).1 n
        = if n = new then stored r old else if n = old then [] else stored r n := by
  have hne : new ≠ old := by
    rintro rfl; exact hold (not_taken_iff_stored.1 ht)
  have hu' := hu old
  rcases move_cases lib ht (old := old) with ⟨x, h1, e⟩ | ⟨x, h1, h2, e⟩ | ⟨x, h1, h2, h3, e⟩ |
    ⟨x, h1, h2, h3, h4, e⟩ | ⟨x, h1, h2, h3, h4, h5, e⟩ | ⟨h, e⟩
  · have hs : stored r old = [.kart x] ∧ r.f1 old = none ∧ r.track old = none ∧
        r.scalar old = none ∧ r.vector old = none := by
      cases h2 : r.f1 old <;> cases h3 : r.track old <;> cases h4 : r.scalar old <;>
        cases h5 : r.vector old <;> simp [stored, h1, h2, h3, h4, h5] at hu' ⊢
    refine ⟨by rw [e], fun n => ?_⟩
    rw [e]
    by_cases hn : n = old
    · subst hn; simp [stored, drop, hs, Ne.symm hne]
    · have := (stored_remove (r := { r with kart := put r.kart new x }) hn).1
      dsimp only at this ⊢
      rw [this, stored_putKart ht, hs.1]; simp [hn]
  · have hs : stored r old = [.f1 x] ∧ r.kart old = none ∧ r.track old = none ∧
        r.scalar old = none ∧ r.vector old = none := by
      cases h3 : r.track old <;> cases h4 : r.scalar old <;>
        cases h5 : r.vector old <;> simp [stored, h1, h2, h3, h4, h5] at hu' ⊢
    refine ⟨by rw [e], fun n => ?_⟩
    rw [e]
    by_cases hn : n = old
    · subst hn; simp [stored, drop, hs, Ne.symm hne]
    · have := (stored_remove (r := { r with f1 := put r.f1 new x }) hn).2.1
      dsimp only at this ⊢
      rw [this, stored_putF1 ht, hs.1]; simp [hn]
  · have hs : stored r old = [.track x] ∧ r.kart old = none ∧ r.f1 old = none ∧
        r.scalar old = none ∧ r.vector old = none := by
      cases h4 : r.scalar old <;>
        cases h5 : r.vector old <;> simp [stored, h1, h2, h3, h4, h5] at hu' ⊢
    refine ⟨by rw [e], fun n => ?_⟩
    rw [e]
    by_cases hn : n = old
    · subst hn; simp [stored, drop, hs, Ne.symm hne]
    · have := (stored_remove (r := { r with track := put r.track new x }) hn).2.2.1
      dsimp only at this ⊢
      rw [this, stored_putTrack ht, hs.1]; simp [hn]
  · have hs : stored r old = [.vector x] ∧ r.kart old = none ∧ r.f1 old = none ∧
        r.track old = none ∧ r.scalar old = none := by
      cases h5 : r.scalar old <;> simp [stored, h1, h2, h3, h4, h5] at hu' ⊢
    refine ⟨by rw [e], fun n => ?_⟩
    rw [e]
    by_cases hn : n = old
    · subst hn; simp [stored, drop, hs, Ne.symm hne]
    · have := (stored_remove (r := { r with vector := put r.vector new x }) hn).2.2.2.2
      dsimp only at this ⊢
      rw [this, stored_putVector ht, hs.1]; simp [hn]
  · have hs : stored r old = [.scalar x] ∧ r.kart old = none ∧ r.f1 old = none ∧
        r.track old = none ∧ r.vector old = none := by
      simp [stored, h1, h2, h3, h4, h5]
    refine ⟨by rw [e], fun n => ?_⟩
    rw [e]
    by_cases hn : n = old
    · subst hn; simp [stored, drop, hs, Ne.symm hne]
    · have := (stored_remove (r := { r with scalar := put r.scalar new x }) hn).2.2.2.1
      dsimp only at this ⊢
      rw [this, stored_putScalar ht, hs.1]; simp [hn]
  · exact absurd h hold

end Verif.Registry

namespace Verif.Registry

variable {Kart F1 Track K : Type}

theorem foldl_put_new {V : Type} (l : List (Name × V)) (t : Table V) (n : Name) (x : V)
    (ht : t n = none ∨ t n = some x) (hl : ∀ p ∈ l, p.1 = n → p.2 = x)
    (hex : t n = some x ∨ ∃ p ∈ l, p.1 = n) :
    (l.foldl (fun t p => put t p.1 p.2) t) n = some x := by
  induction l generalizing t with
  | nil =>
    rcases hex with h | ⟨p, hp, -⟩
    · exact h
    · simp at hp
  | cons p ps ih =>
    simp only [List.foldl_cons]
    by_cases hs : t n = some x
    · exact (foldl_put ps _ n).1 x (put_of_some t hs)
    · have hn : t n = none := ht.resolve_right hs
      by_cases hp : p.1 = n
      · apply (foldl_put ps _ n).1 x
        rw [← hp, put_self _ _ (hp ▸ hn), hl p (by simp) hp]
      · refine ih _ (.inl ?_) (fun q hq => hl q (by simp [hq])) ?_
        · rw [put_ne _ _ (Ne.symm hp), hn]
        · rcases hex with h | ⟨q, hq, hqn⟩
          · exact absurd h hs
          · rcases List.mem_cons.1 hq with rfl | hq
            · exact absurd hqn hp
            · exact .inr ⟨q, hq, hqn⟩

theorem integralScalars_ok (job : LapJob K) (vs : List Name)
    (h : (integralScalars job vs).2 = false) :
    (∀ p ∈ (integralScalars job vs).1, ∃ v ∈ vs, p.1 = job.pre ++ v ∧
      job.integral (v.drop integralPrefix.length) = some p.2) ∧
    ∀ v ∈ vs, ∃ x, job.integral (v.drop integralPrefix.length) = some x ∧
      (job.pre ++ v, x) ∈ (integralScalars job vs).1 := by
  induction vs with
  | nil => simp [integralScalars]
  | cons v vs ih =>
    simp only [integralScalars] at h ⊢
    split at h
    · simp at h
    · rename_i x hx
      dsimp only at h ⊢
      obtain ⟨h1, h2⟩ := ih h
      refine ⟨?_, ?_⟩
      · intro p hp
        rcases List.mem_cons.1 hp with rfl | hp
        · exact ⟨v, by simp, rfl, hx⟩
        · obtain ⟨w, hw, e⟩ := h1 p hp
          exact ⟨w, by simp [hw], e⟩
      · intro w hw
        rcases List.mem_cons.1 hw with rfl | hw
        · exact ⟨x, hx, by simp⟩
        · obtain ⟨y, hy, hm⟩ := h2 w hw
          exact ⟨y, hy, by simp [hm]⟩

theorem vectorPairs_ok (job : LapJob K) (vs : List Name) {l : List (Name × List K)}
    (h : vectorPairs job vs = some l) :
    (∀ p ∈ l, ∃ v ∈ vs, p.1 = job.pre ++ v ∧ job.vec v = some p.2) ∧
    ∀ v ∈ vs, ∃ x, job.vec v = some x ∧ (job.pre ++ v, x) ∈ l := by
  induction vs generalizing l with
  | nil => simp [vectorPairs] at h; subst h; simp
  | cons v vs ih =>
    simp only [vectorPairs] at h
    split at h
    · rename_i x rest hx hr
      simp only [Option.some.injEq] at h
      subst h
      obtain ⟨h1, h2⟩ := ih hr
      refine ⟨?_, ?_⟩
      · intro p hp
        rcases List.mem_cons.1 hp with rfl | hp
        · exact ⟨v, by simp, rfl, hx⟩
        · obtain ⟨w, hw, e⟩ := h1 p hp
          exact ⟨w, by simp [hw], e⟩
      · intro w hw
        rcases List.mem_cons.1 hw with rfl | hw
        · exact ⟨x, hx, by simp⟩
        · obtain ⟨y, hy, hm⟩ := h2 w hw
          exact ⟨y, hy, by simp [hm]⟩
    · simp at h

theorem integralPrefix_head (t : Name) : (integralPrefix ++ t).head? = some 'i' := by
  have h6 : integralPrefix.head? = some 'i' := by decide +kernel
  rw [List.head?_append, h6]; rfl

theorem derivative_ne_base {pre v a w : Name} (h : derivativeName pre v a = pre ++ w) :
    w = "derivatives/".toList ++ v ++ '/' :: a := by
  simp only [derivativeName, List.append_assoc] at h
  simpa only [List.append_assoc] using (List.append_cancel_left h).symm

theorem saveLap_saves {r : Reg Kart F1 Track K} {job : LapJob K}
    (hok : (saveLap r job).2 = .ok .unit) (v : Name)
    (hv : v ∈ job.vars) :
    (v = "laptime".toList → (saveLap r job).1.scalar (job.pre ++ v) = some job.laptime) ∧
    (v ≠ "laptime".toList → ∀ q, v = "integral_quantities.".toList ++ q →
      ∃ x, job.integral q = some x ∧ (saveLap r job).1.scalar (job.pre ++ v) = some x) ∧
    (v ≠ "laptime".toList → (∀ q, v ≠ "integral_quantities.".toList ++ q) →
      ∃ x, job.vec v = some x ∧ (saveLap r job).1.vector (job.pre ++ v) = some x) := by
  have hdl : ∀ a w, "laptime".toList ≠ "derivatives/".toList ++ w ++ '/' :: a := by
    intro a w h
    exact absurd (congrArg List.head? h) (by simp)
  unfold saveLap at hok ⊢
  split at hok
  · simp at hok
  · simp at hok
  · rename_i hs
    simp only
    split at hok
    · simp at hok
    · rename_i hnt
      have hnt' : lapNamesTaken r job = false := by simpa using hnt
      rw [if_neg hnt]
      dsimp only at hok ⊢
      split at hok
      · simp at hok
      · rename_i hint
        rw [if_neg hint]
        have hint' : (integralScalars job (integralVars job)).2 = false := by simpa using hint
        obtain ⟨hi1, hi2⟩ := integralScalars_ok job _ hint'
        split at hok
        · simp at hok
        · rename_i vs hvs
          obtain ⟨hv1, hv2⟩ := vectorPairs_ok job _ hvs
          have hfree : taken r (job.pre ++ v) = false := by
            simp only [lapNamesTaken, List.any_eq_false, Bool.or_eq_true, not_or,
              Bool.not_eq_true] at hnt'
            exact (hnt' v hv).1
          have hfree := not_taken_iff.1 hfree
          refine ⟨?_, ?_, ?_⟩
          · intro hl
            simp only [putVectors, putScalars]
            apply (foldl_put _ _ _).1
            apply foldl_put_new
            · exact .inl hfree.2.2.2.1
            · intro p hp hpn
              unfold laptimeScalars at hp
              rw [if_pos (hl ▸ hv)] at hp
              rcases List.mem_cons.1 hp with rfl | hp
              · rfl
              · split at hp
                · obtain ⟨a, -, rfl⟩ := List.mem_map.1 hp
                  exact absurd (hl ▸ derivative_ne_base hpn) (hdl _ _)
                · simp at hp
            · refine .inr ⟨(job.pre ++ "laptime".toList, job.laptime), ?_, by rw [hl]⟩
              unfold laptimeScalars
              rw [if_pos (hl ▸ hv)]; exact List.mem_cons_self
          · intro hl q hq
            have hmem : v ∈ integralVars job := by
              refine List.mem_filter.2 ⟨hv, ?_⟩
              simp only [decide_eq_true_eq]
              refine ⟨hl, ?_⟩
              rw [List.isPrefixOf_iff_prefix]
              exact ⟨q, hq.symm⟩
            have hdrop : v.drop integralPrefix.length = q := by
              rw [hq]; exact List.drop_left
            obtain ⟨x, hx, hxm⟩ := hi2 v hmem
            rw [hdrop] at hx
            refine ⟨x, hx, ?_⟩
            simp only [putVectors, putScalars]
            apply foldl_put_new
            · left
              apply (foldl_put _ _ _).2 hfree.2.2.2.1
              intro hm
              obtain ⟨p, hp, hpn⟩ := List.mem_map.1 hm
              unfold laptimeScalars at hp
              split at hp
              · rcases List.mem_cons.1 hp with rfl | hp
                · exact hl (List.append_cancel_left hpn).symm
                · split at hp
                  · obtain ⟨a, -, rfl⟩ := List.mem_map.1 hp
                    have h1 := derivative_ne_base hpn
                    have h2 := congrArg List.head? h1
                    rw [hq] at h2
                    have h3 := integralPrefix_head q
                    unfold integralPrefix at h3
                    rw [h3] at h2
                    exact absurd h2 (by simp)
                  · simp at hp
              · simp at hp
            · intro p hp hpn
              obtain ⟨w, hw, e, hwx⟩ := hi1 p hp
              have : w = v := List.append_cancel_left (e.symm.trans hpn)
              subst this
              rw [hdrop, hx] at hwx
              exact (Option.some.inj hwx).symm
            · exact .inr ⟨_, hxm, rfl⟩
          · intro hl hq
            have hmem : v ∈ vectorVars job := by
              refine List.mem_filter.2 ⟨hv, ?_⟩
              simp only [decide_eq_true_eq]
              refine ⟨hl, ?_⟩
              by_contra h
              rw [Bool.not_eq_false, List.isPrefixOf_iff_prefix] at h
              obtain ⟨q, h⟩ := h
              exact hq q h.symm
            obtain ⟨x, hx, hxm⟩ := hv2 v hmem
            refine ⟨x, hx, ?_⟩
            simp only [putVectors, putScalars]
            apply (foldl_put _ _ _).1
            apply foldl_put_new
            · exact .inl hfree.2.2.2.2
            · intro p hp hpn
              obtain ⟨w, hw, e, hwx⟩ := hv1 p hp
              have : w = v := List.append_cancel_left (e.symm.trans hpn)
              subst this
              rw [hx] at hwx
              exact (Option.some.inj hwx).symm
            · exact .inr ⟨_, hxm, rfl⟩

theorem slash_split {x y a b : Name} (hx : '/' ∉ x) (hy : '/' ∉ y)
    (h : x ++ '/' :: a = y ++ '/' :: b) : x = y ∧ a = b := by
  induction x generalizing y with
  | nil =>
    cases y with
    | nil => simpa using h
    | cons c cs =>
      simp only [List.nil_append, List.cons_append, List.cons.injEq] at h
      exact absurd (h.1 ▸ List.mem_cons_self) hy
  | cons c cs ih =>
    cases y with
    | nil =>
      simp only [List.nil_append, List.cons_append, List.cons.injEq] at h
      exact absurd (h.1 ▸ List.mem_cons_self) hx
    | cons d ds =>
      simp only [List.cons_append, List.cons.injEq] at h
      obtain ⟨e, h⟩ := h
      obtain ⟨e1, e2⟩ := ih (fun m => hx (by simp [m])) (fun m => hy (by simp [m])) h
      exact ⟨by rw [e, e1], e2⟩

theorem derivativeName_inj {pre v a w b : Name} (hv : '/' ∉ v) (hw : '/' ∉ w)
    (h : derivativeName pre v a = derivativeName pre w b) : v = w ∧ a = b := by
  simp only [derivativeName, List.append_assoc, List.append_cancel_left_eq] at h
  exact slash_split hv hw h

theorem derivativeName_ne {pre v a w : Name} (hw : '/' ∉ w) :
    derivativeName pre v a ≠ pre ++ w := by
  intro h
  have := derivative_ne_base h
  apply hw; rw [this]; simp

theorem saveLap_derivatives {r : Reg Kart F1 Track K} {job : LapJob K}
    (hok : (saveLap r job).2 = .ok .unit) (hs : job.sens = true) (hsl : ∀ v ∈ job.vars, '/' ∉ v)
    (v a : Name) (hv : v ∈ job.vars) (ha : a ∈ job.aliases) :
    (v = "laptime".toList →
      (saveLap r job).1.scalar (derivativeName job.pre v a) = some (job.dlaptime a)) ∧
    (v ≠ "laptime".toList → (∀ q, v ≠ "integral_quantities.".toList ++ q) →
      (saveLap r job).1.vector (derivativeName job.pre v a) = some (job.dvec v a)) := by
  unfold saveLap at hok ⊢
  split at hok
  · simp at hok
  · simp at hok
  · simp only
    split at hok
    · simp at hok
    · rename_i hnt
      have hnt' : lapNamesTaken r job = false := by simpa using hnt
      rw [if_neg hnt]
      dsimp only at hok ⊢
      split at hok
      · simp at hok
      · rename_i hint
        rw [if_neg hint]
        split at hok
        · simp at hok
        · rename_i vs hvs
          obtain ⟨hv1, hv2⟩ := vectorPairs_ok job _ hvs
          have hfree : taken r (derivativeName job.pre v a) = false := by
            simp only [lapNamesTaken, List.any_eq_false, Bool.or_eq_true, not_or,
              Bool.not_eq_true, hs, Bool.true_and] at hnt'
            exact (hnt' v hv).2 a ha
          have hfree := not_taken_iff.1 hfree
          have hlt : '/' ∉ "laptime".toList := by decide
          refine ⟨?_, ?_⟩
          · intro hl
            simp only [putVectors, putScalars]
            apply (foldl_put _ _ _).1
            apply foldl_put_new
            · exact .inl hfree.2.2.2.1
            · intro p hp hpn
              unfold laptimeScalars at hp
              rw [if_pos (hl ▸ hv), if_pos hs] at hp
              rcases List.mem_cons.1 hp with rfl | hp
              · exact absurd hpn.symm (derivativeName_ne hlt)
              · obtain ⟨b, -, rfl⟩ := List.mem_map.1 hp
                rw [(derivativeName_inj hlt (hsl v hv) hpn).2]
            · refine .inr ⟨(derivativeName job.pre "laptime".toList a, job.dlaptime a), ?_,
                by rw [hl]⟩
              unfold laptimeScalars
              rw [if_pos (hl ▸ hv), if_pos hs]
              exact List.mem_cons_of_mem _ (List.mem_map.2 ⟨a, ha, rfl⟩)
          · intro hl hq
            have hmem : v ∈ vectorVars job := by
              refine List.mem_filter.2 ⟨hv, ?_⟩
              simp only [decide_eq_true_eq]
              refine ⟨hl, ?_⟩
              by_contra h
              rw [Bool.not_eq_false, List.isPrefixOf_iff_prefix] at h
              obtain ⟨q, h⟩ := h
              exact hq q h.symm
            simp only [putVectors, putScalars]
            apply foldl_put_new
            · left
              apply (foldl_put _ _ _).2 hfree.2.2.2.2
              intro hm
              obtain ⟨p, hp, hpn⟩ := List.mem_map.1 hm
              obtain ⟨w, hw, e, -⟩ := hv1 p hp
              exact derivativeName_ne (hsl w (List.mem_filter.1 hw).1) (hpn.symm.trans e)
            · intro p hp hpn
              unfold vectorDerivatives at hp
              rw [if_pos hs] at hp
              obtain ⟨w, hw, hp⟩ := List.mem_flatMap.1 hp
              obtain ⟨b, -, rfl⟩ := List.mem_map.1 hp
              obtain ⟨e1, e2⟩ :=
                derivativeName_inj (hsl w (List.mem_filter.1 hw).1) (hsl v hv) hpn
              rw [e1, e2]
            · refine .inr ⟨(derivativeName job.pre v a, job.dvec v a), ?_, rfl⟩
              unfold vectorDerivatives
              rw [if_pos hs]
              exact List.mem_flatMap.2 ⟨v, hmem, List.mem_map.2 ⟨a, ha, rfl⟩⟩

end Verif.Registry
