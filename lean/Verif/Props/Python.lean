import Verif.Lemmas.Python
import Verif.Lemmas.VehicleNames
import Verif.Props.SteadyVehicles
import Verif.Lemmas.LapFile

/-!
# Properties of the Python module
-/

set_option autoImplicit false

namespace Verif.Python

open Verif.Registry

variable {Kart F1 Track K : Type}

/-! ## C216: data created from Python comes back -/

theorem run_keeps_vector {lib : Name → Option (Name → Bool)} {n : Name} {x : List K} :
    ∀ {ops : List (Op Kart F1 Track K)} {r0 r1 : Reg Kart F1 Track K}, (∀ op ∈ ops, ¬ CanRemove lib n op) →
      r0.vector n = some x → run lib ops r0 = some r1 → r1.vector n = some x
  | [], r0, r1, _, h0, h => by simp [run] at h; exact h ▸ h0
  | op :: ops, r0, r1, hc, h0, h => by
    simp only [run] at h
    split at h
    · simp at h
    · exact run_keeps_vector (fun o ho => hc o (by simp [ho])) (C29_vector_kept lib n x op (hc op (by simp)) r0 h0) h

theorem run_keeps_scalar {lib : Name → Option (Name → Bool)} {n : Name} {x : K} :
    ∀ {ops : List (Op Kart F1 Track K)} {r0 r1 : Reg Kart F1 Track K}, (∀ op ∈ ops, ¬ CanRemove lib n op) →
      r0.scalar n = some x → run lib ops r0 = some r1 → r1.scalar n = some x
  | [], r0, r1, _, h0, h => by simp [run] at h; exact h ▸ h0
  | op :: ops, r0, r1, hc, h0, h => by
    simp only [run] at h
    split at h
    · simp at h
    · exact run_keeps_scalar (fun o ho => hc o (by simp [ho])) (C29_scalar_kept lib n x op (hc op (by simp)) r0 h0) h

theorem stored_of_vector {r : Reg Kart F1 Track K} (hu : Unique r) {n : Name} {x : List K} (h : r.vector n = some x) :
    stored r n = [.vector x] := by
  have := hu n
  unfold stored at this ⊢
  rw [h] at this ⊢
  revert this
  rcases r.kart n with _ | a <;> rcases r.f1 n with _ | b <;> rcases r.track n with _ | c <;>
    rcases r.scalar n with _ | d <;> simp

theorem stored_of_scalar {r : Reg Kart F1 Track K} (hu : Unique r) {n : Name} {x : K} (h : r.scalar n = some x) :
    stored r n = [.scalar x] := by
  have := hu n
  unfold stored at this ⊢
  rw [h] at this ⊢
  revert this
  rcases r.kart n with _ | a <;> rcases r.f1 n with _ | b <;> rcases r.track n with _ | c <;>
    rcases r.vector n with _ | d <;> simp

theorem createVector_free (lib : Name → Option (Name → Bool)) {name : Name} {data : List K} (hn : Plain name)
    (hl : data.length < 2 ^ 31) {r : Reg Kart F1 Track K} (hfree : stored r name = []) :
    createVector lib name data r = ({ r with vector := put r.vector name data }, .ret ()) := by
  have hnt := not_taken_iff_stored.2 hfree
  unfold createVector
  rw [cstr_plain hn, cInt_small hl]
  have h0 : ¬ (data.length : Int) < 0 := by omega
  simp [step, hnt, h0]

/-- C216, vectors: a vector created under a free name has its size, its numbers and its type, until a call deletes or
moves it. -/
theorem C216_vector (lib : Name → Option (Name → Bool)) (name : Name) (data : List K) (hn : Plain name)
    (hl : data.length < 2 ^ 31) (r r' : Reg Kart F1 Track K) (hfree : stored r name = [])
    (ops : List (Op Kart F1 Track K)) (hops : ∀ op ∈ ops, ¬ CanRemove lib name op)
    (hrun : run lib ops (createVector lib name data r).1 = some r') :
    (createVector lib name data r).2 = .ret () ∧ downloadVectorSize name r' = .ret (data.length : Int) ∧
      downloadVector name r' = .ret data ∧ (Unique r' → variableType name r' = .ret "vector".toList) := by
  rw [createVector_free lib hn hl hfree] at hrun ⊢
  have hr : r.vector name = none := by
    revert hfree
    unfold stored
    rcases r.vector name with _ | d <;> simp
  have hv : r'.vector name = some data := run_keeps_vector hops (by simp [put, hr]) hrun
  obtain ⟨h1, h2⟩ := downloadVector_eq hn hv hl
  exact ⟨rfl, h1, h2, fun hu => (variableType_eq hu hn).2.2.1 _ (stored_of_vector hu hv)⟩

/-- C216, scalars. -/
theorem C216_scalar (lib : Name → Option (Name → Bool)) (name : Name) (x : K) (hn : Plain name)
    (r r' : Reg Kart F1 Track K) (hfree : stored r name = [])
    (ops : List (Op Kart F1 Track K)) (hops : ∀ op ∈ ops, ¬ CanRemove lib name op)
    (hrun : run lib ops (createScalar lib name x r).1 = some r') :
    (createScalar lib name x r).2 = .ret () ∧ downloadScalar name r' = .ret x ∧
      (Unique r' → variableType name r' = .ret "scalar".toList) := by
  have hnt := not_taken_iff_stored.2 hfree
  have hc : createScalar lib name x r = ({ r with scalar := put r.scalar name x }, .ret ()) := by
    unfold createScalar
    rw [cstr_plain hn]
    simp [step, hnt]
  rw [hc] at hrun ⊢
  have hr : r.scalar name = none := by
    revert hfree
    unfold stored
    rcases r.scalar name with _ | d <;> simp
  have hv : r'.scalar name = some x := run_keeps_scalar hops (by simp [put, hr]) hrun
  exact ⟨rfl, downloadScalar_eq hn hv, fun hu => (variableType_eq hu hn).2.1 _ (stored_of_scalar hu hv)⟩

/-- C216, names that are taken: the process ends, whatever is stored under the name. -/
theorem C216_taken (lib : Name → Option (Name → Bool)) (name : Name) (hn : Plain name) (r : Reg Kart F1 Track K)
    (h : stored r name ≠ []) (x : K) (data : List K) :
    createVector lib name data r = (r, .aborted) ∧ createScalar lib name x r = (r, .aborted) := by
  have ht : taken r name = true := by
    by_contra hc
    exact h (not_taken_iff_stored.1 (by simpa using hc))
  constructor
  · unfold createVector
    rw [cstr_plain hn]
    simp [step, ht]
  · unfold createScalar
    rw [cstr_plain hn]
    simp [step, ht]

/-- C216, names without a variable: the process ends. -/
theorem C216_missing (name : Name) (hn : Plain name) (r : Reg Kart F1 Track K) (hu : Unique r)
    (h : stored r name = []) :
    downloadScalar name r = .aborted ∧ downloadVectorSize name r = .aborted ∧ downloadVector name r = .aborted ∧
      variableType name r = .aborted := by
  have h0 : r.scalar name = none ∧ r.vector name = none := by
    revert h
    unfold stored
    rcases r.scalar name with _ | d <;> rcases r.vector name with _ | d <;> simp
  have h2 : downloadVectorSize name r = .aborted := by simp [downloadVectorSize, step, cstr_plain hn, h0.2]
  refine ⟨by simp [downloadScalar, step, cstr_plain hn, h0.1], h2, ?_, (variableType_eq hu hn).1 h⟩
  unfold downloadVector
  rw [h2, Py.bind_aborted]

/-- A name with a null character is cut: the vector created as `a\0b` is the vector `a`. -/
theorem C216_false_null (lib : Name → Option (Name → Bool)) (x : K) :
    createScalar lib "a\x00b".toList x (Reg.empty : Reg Kart F1 Track K) =
      createScalar lib "a".toList x Reg.empty := by
  unfold createScalar
  have : cstr "a\x00b".toList = cstr "a".toList := by decide
  rw [this]

example : ∃ r : Reg Unit Unit Unit ℤ,
    run (fun _ => none) [.createScalar "s".toList 1, .move "s".toList "t".toList]
      (createVector (fun _ => none) "v".toList [5, 6] Reg.empty).1 = some r ∧
    downloadVector "v".toList r = .ret [5, 6] := by
  have hn : Plain "v".toList := by unfold Plain; decide
  obtain ⟨r, hr⟩ : ∃ r : Reg Unit Unit Unit ℤ,
      run (fun _ => none) [.createScalar "s".toList 1, .move "s".toList "t".toList]
        (createVector (fun _ => none) "v".toList [5, 6] Reg.empty).1 = some r := by
    rw [createVector_free _ hn (by norm_num) rfl]
    exact ⟨_, rfl⟩
  exact ⟨r, hr, (C216_vector _ _ _ hn (by norm_num) Reg.empty r rfl _ (by simp [CanRemove]) hr).2.2.1⟩

/-! ## C217: `download_variables` -/

/-- C217: the call returns exactly when every requested name is that of a scalar or a vector, and then every name
stands for its value, and no other name is there. -/
theorem C217_download_variables (pre : Name) (vars : List Name) (r : Reg Kart F1 Track K) (hu : Unique r)
    (hs : Short r) (hp : ∀ v ∈ vars, Plain (pre ++ v)) (d : Name → Option (Item K)) :
    downloadVariables pre vars r = .ret d ↔
      (∀ v ∈ vars, ∃ x, Holds r (pre ++ v) x ∧ d v = some x) ∧ ∀ v, v ∉ vars → d v = none := by
  have uniq : ∀ d', ((∀ v ∈ vars, ∃ x, Holds r (pre ++ v) x ∧ d v = some x) ∧ ∀ v, v ∉ vars → d v = none) →
      (∀ v ∈ vars, ∃ x, Holds r (pre ++ v) x ∧ d' v = some x) → (∀ v, v ∉ vars → d' v = none) → d' = d := by
    intro d' h h1 h2
    funext v
    by_cases hv : v ∈ vars
    · obtain ⟨x, hx, e⟩ := h.1 v hv
      obtain ⟨y, hy, e'⟩ := h1 v hv
      rw [e, e', hx.unique hy]
    · rw [h.2 v hv, h2 v hv]
  constructor
  · intro h
    have held : ∀ v ∈ vars, ∃ x, Holds r (pre ++ v) x := by
      have gen : ∀ (l : List Name) (d0 d : Name → Option (Item K)), (∀ v ∈ l, Plain (pre ++ v)) →
          downloadLoop pre r l d0 = .ret d → ∀ v ∈ l, ∃ x, Holds r (pre ++ v) x := by
        intro l
        induction l with
        | nil => simp
        | cons w l ih =>
          intro d0 d hp h
          simp only [downloadLoop] at h
          obtain ⟨k0, k1, k2, k3, k4⟩ := downloadItem_eq hu hs (hp w (by simp))
          have hw : ∃ x, Holds r (pre ++ w) x := by
            rcases stored_cases hu (pre ++ w) with c | c | c | c | c
            · rw [k0 c] at h; cases h
            · exact c
            · rw [k2 c] at h; cases h
            · rw [k3 c] at h; cases h
            · rw [k4 c] at h; cases h
          obtain ⟨x, hx⟩ := hw
          rw [k1 x hx, Py.bind_ret] at h
          intro v hv
          rcases List.mem_cons.1 hv with rfl | hv
          · exact ⟨x, hx⟩
          · exact ih _ _ (fun v hv => hp v (by simp [hv])) h v hv
      exact gen vars _ d hp h
    obtain ⟨d', h1, h2, h3⟩ := downloadLoop_ok hu hs pre vars hp held fun _ => none
    have : d' = d := Py.ret.inj (h1.symm.trans h)
    exact this ▸ ⟨h2, h3⟩
  · intro h
    obtain ⟨d', h1, h2, h3⟩ := downloadLoop_ok hu hs pre vars hp (fun v hv => (h.1 v hv).imp fun _ k => k.1) fun _ => none
    have := uniq d' h h2 h3
    exact this ▸ h1

/-- C217, what stops the call: the first name that is not that of a scalar or vector. A name without variable ends the
process, the name of a vehicle or of a track raises. -/
theorem C217_first_failure (pre : Name) (a : List Name) (v : Name) (b : List Name) (r : Reg Kart F1 Track K)
    (hu : Unique r) (hs : Short r) (hp : ∀ w ∈ a ++ v :: b, Plain (pre ++ w))
    (ha : ∀ w ∈ a, ∃ x, Holds r (pre ++ w) x) :
    (stored r (pre ++ v) = [] → downloadVariables pre (a ++ v :: b) r = .aborted) ∧
    ((∃ x, stored r (pre ++ v) = [.track x]) ∨ (∃ x, stored r (pre ++ v) = [.kart x]) ∨
      (∃ x, stored r (pre ++ v) = [.f1 x]) → downloadVariables pre (a ++ v :: b) r = .raised) := by
  have gen : ∀ (a : List Name) (d : Name → Option (Item K)), (∀ w ∈ a, Plain (pre ++ w)) →
      (∀ w ∈ a, ∃ x, Holds r (pre ++ w) x) → ∃ d' : Name → Option (Item K), downloadLoop pre r (a ++ v :: b) d =
        (downloadItem (pre ++ v) r).bind fun x => downloadLoop pre r b fun n => if n = v then some x else d' n := by
    intro a
    induction a with
    | nil => intro d _ _; exact ⟨d, rfl⟩
    | cons w a ih =>
      intro d hp ha
      obtain ⟨x, hx⟩ := ha w (by simp)
      obtain ⟨d', h⟩ := ih (fun n => if n = w then some x else d n) (fun u hu => hp u (by simp [hu]))
        (fun u hu => ha u (by simp [hu]))
      exact ⟨d', by simp only [List.cons_append, downloadLoop, (downloadItem_eq hu hs (hp w (by simp))).2.1 x hx,
        Py.bind_ret, h]⟩
  obtain ⟨d', h⟩ := gen a (fun _ => none) (fun w hw => hp w (by simp [hw])) ha
  obtain ⟨k0, -, k2, k3, k4⟩ := downloadItem_eq hu hs (hp v (by simp))
  unfold downloadVariables
  rw [h]
  refine ⟨fun e => by rw [k0 e, Py.bind_aborted], ?_⟩
  rintro (e | e | e)
  · rw [k2 e, Py.bind_raised]
  · rw [k3 e, Py.bind_raised]
  · rw [k4 e, Py.bind_raised]

/-- Tables with a scalar `run/laptime`, a vector `run/x` and a track `run/c`. -/
def sampleReg : Reg Unit Unit Unit ℤ where
  kart := fun _ => none
  f1 := fun _ => none
  track := fun n => if n = "run/c".toList then some () else none
  scalar := fun n => if n = "run/laptime".toList then some 84 else none
  vector := fun n => if n = "run/x".toList then some [1, 2] else none

theorem sampleReg_unique : Unique sampleReg := by
  intro n
  unfold stored sampleReg
  simp only
  by_cases h1 : n = "run/c".toList
  · subst h1; decide
  · by_cases h2 : n = "run/laptime".toList
    · subst h2; decide
    · by_cases h3 : n = "run/x".toList
      · subst h3; decide
      · rw [if_neg h1, if_neg h2, if_neg h3]; simp

theorem sampleReg_short : Short sampleReg := by
  intro n l h
  unfold sampleReg at h
  simp only at h
  split at h
  · obtain rfl := Option.some.inj h; decide
  · cases h

example : downloadVariables "run/".toList ["x".toList, "laptime".toList, "x".toList] sampleReg = .ret fun n =>
    if n = "x".toList then some (.arr [1, 2]) else if n = "laptime".toList then some (.num 84) else none := by
  refine (C217_download_variables _ _ _ sampleReg_unique sampleReg_short ?_ _).2 ⟨?_, ?_⟩
  · intro v hv
    simp only [List.mem_cons, List.not_mem_nil, or_false] at hv
    unfold Plain
    rcases hv with rfl | rfl | rfl <;> decide
  · intro v hv
    simp only [List.mem_cons, List.not_mem_nil, or_false] at hv
    rcases hv with rfl | rfl | rfl
    · exact ⟨.arr [1, 2], by unfold Holds; rfl, rfl⟩
    · exact ⟨.num 84, by unfold Holds; rfl, rfl⟩
    · exact ⟨.arr [1, 2], by unfold Holds; rfl, rfl⟩
  · intro v hv
    simp only [List.mem_cons, List.not_mem_nil, or_false, not_or] at hv
    rw [if_neg hv.1, if_neg hv.2.1]

example : downloadVariables "run/".toList ["x".toList, "c".toList, "y".toList] sampleReg = .raised := by
  refine (C217_first_failure "run/".toList ["x".toList] "c".toList ["y".toList] _ sampleReg_unique sampleReg_short ?_
    ?_).2 (.inl ⟨(), rfl⟩)
  · intro v hv
    simp only [List.cons_append, List.nil_append, List.mem_cons, List.not_mem_nil, or_false] at hv
    unfold Plain
    rcases hv with rfl | rfl | rfl <;> decide
  · intro v hv
    simp only [List.mem_cons, List.not_mem_nil, or_false] at hv
    subst hv
    exact ⟨.arr [1, 2], by unfold Holds; rfl⟩

/-! ## C219: the names of a vehicle type -/

theorem mem_insertAll {l m : List String} {v : String} : v ∈ VehicleNames.insertAll m l ↔ v ∈ m ∨ v ∈ l := by
  unfold VehicleNames.insertAll
  induction l generalizing m with
  | nil => simp
  | cons k l ih =>
    rw [List.foldl_cons, ih]
    split
    · simp only [List.mem_cons]
      exact ⟨fun h => h.imp_right .inr, fun h => by rcases h with h | rfl | h <;> simp_all⟩
    · simp only [List.mem_append, List.mem_cons]
      exact ⟨fun h => by rcases h with (h | h) | h <;> simp_all, fun h => by rcases h with h | h | h <;> simp_all⟩

/-- The four tyres. -/
def tyreNames : List String :=
  ["front-axle.left-tire", "front-axle.right-tire", "rear-axle.left-tire", "rear-axle.right-tire"]

/-- What is known of every tyre. -/
def tyreQuantities : List String :=
  ["position.x", "position.y", "position.z", "velocity.x", "velocity.y", "velocity.z", "velocity.car_frame.x",
   "velocity.car_frame.y", "velocity.car_frame.z", "lambda", "true_kappa", "dissipation", "force.x", "force.y", "force.z",
   "force.inertial.x", "force.inertial.y", "force.inertial.z", "omega"]

theorem mem_tyreOutputs {t v : String} :
    v ∈ VehicleNames.tyreOutputs t ↔ ∃ q ∈ tyreQuantities, v = t ++ ("." ++ q) := by
  simp only [VehicleNames.tyreOutputs, tyreQuantities, List.mem_cons, List.not_mem_nil, or_false, exists_eq_or_imp,
    exists_eq_left]
  exact Iff.rfl

/-- C219: the outputs of both vehicles are the quantities of the chassis and those of each of the four tyres. -/
theorem C219_outputs (v : String) :
    v ∈ VehicleNames.outputNames ↔
      v ∈ ["chassis.acceleration.x", "chassis.acceleration.y", "chassis.force.x", "chassis.force.y", "chassis.force.z",
        "chassis.torque.x", "chassis.torque.y", "chassis.torque.z", "chassis.acceleration.yaw", "chassis.position.x",
        "chassis.position.y", "chassis.attitude.yaw", "chassis.understeer_oversteer_indicator",
        "chassis.aerodynamics.cd", "chassis.aerodynamics.lift", "chassis.aerodynamics.drag",
        "chassis.aerodynamics.drag.x", "chassis.aerodynamics.drag.y", "chassis.aerodynamics.wind_velocity_body.x",
        "chassis.aerodynamics.wind_velocity_body.y", "chassis.aerodynamics.aerodynamic_velocity.x",
        "chassis.aerodynamics.aerodynamic_velocity.y"] ∨
      ∃ t ∈ tyreNames, ∃ q ∈ tyreQuantities, v = t ++ ("." ++ q) := by
  unfold VehicleNames.outputNames VehicleNames.axleOutputs
  simp only [mem_insertAll, mem_tyreOutputs, List.not_mem_nil, false_or]
  simp only [tyreNames, List.mem_cons, List.not_mem_nil, or_false, exists_eq_or_imp, exists_eq_left]
  constructor
  · rintro ((h | h | h) | h | h)
    · exact .inl (by simpa [VehicleNames.chassisOutputs] using h)
    · exact .inr (.inl h)
    · exact .inr (.inr (.inl h))
    · exact .inr (.inr (.inr (.inl h)))
    · exact .inr (.inr (.inr (.inr h)))
  · rintro (h | h | h | h | h)
    · exact .inl (.inl (by simpa [VehicleNames.chassisOutputs] using h))
    · exact .inl (.inr (.inl h))
    · exact .inl (.inr (.inr h))
    · exact .inr (.inl h)
    · exact .inr (.inr h)

/-- C219, the two types, for every choice of the bounds of the variables. -/
theorem C219_types {K' : Type*} [Field K'] (a b c d : Nat → K') :
    VehicleNames.typeNamed "f1-3dof".toList =
      some (VehicleNames.namesOf (LapOptions.f1Type VehicleNames.outputNames a b c d)) ∧
    VehicleNames.typeNamed "kart-6dof".toList =
      some (VehicleNames.namesOf (LapOptions.kartType VehicleNames.outputNames a b c d)) ∧
    ∀ type, type ≠ "f1-3dof".toList → type ≠ "kart-6dof".toList → VehicleNames.typeNamed type = none := by
  refine ⟨rfl, ?_, fun type h1 h2 => ?_⟩
  · unfold VehicleNames.typeNamed
    rw [if_neg (by decide), if_pos rfl]
    rfl
  · unfold VehicleNames.typeNamed
    rw [if_neg h1, if_neg h2]

theorem mapRes_copyName_throw {nChar : Int} (hn : 1 ≤ nChar) {l : List Name}
    (h : ∃ n ∈ l, nChar < (n.length : Int) + 1) : mapRes (Buffer.copyName nChar) l = .throw := by
  induction l with
  | nil => simp at h
  | cons n l ih =>
    simp only [mapRes]
    by_cases hl : nChar < (n.length : Int) + 1
    · rw [(C62_names_fit_partial nChar n hn).2 hl]; rfl
    · rw [(C62_names_fit_partial nChar n hn).1 (by omega), Res.bind_ok]
      obtain ⟨m, hm, hm'⟩ := h
      rcases List.mem_cons.1 hm with rfl | hm
      · exact absurd hm' hl
      · rw [ih ⟨m, hm, hm'⟩]; rfl

theorem mapRes_copyName_ok {nChar : Int} (hn : 1 ≤ nChar) {l : List Name}
    (h : ∀ n ∈ l, (n.length : Int) + 1 ≤ nChar) :
    mapRes (Buffer.copyName nChar) l = .ok (l.map fun n => n ++ ['\x00']) :=
  LapFile.mapRes_eq_ok fun n hm => (C62_names_fit_partial nChar n hn).1 (h n hm)

/-- C219, the C interface: with buffers of at least one byte, all the names are written with their terminators if they
all fit, and otherwise the call throws. -/
theorem C219_buffers (nChar : Int) (hn : 1 ≤ nChar) (type : Name) (t : VehicleNames.Names)
    (h : VehicleNames.typeNamed type = some t) :
    ((∀ n ∈ [t.key] ++ t.inputs ++ t.controls ++ t.outputs, (n.length : Int) + 1 ≤ nChar) →
      VehicleNames.typeNames nChar type = .ok (t.key ++ ['\x00'], t.inputs.map (· ++ ['\x00']),
        t.controls.map (· ++ ['\x00']), t.outputs.map (· ++ ['\x00']))) ∧
    ((∃ n ∈ [t.key] ++ t.inputs ++ t.controls ++ t.outputs, nChar < (n.length : Int) + 1) →
      VehicleNames.typeNames nChar type = .throw) := by
  unfold VehicleNames.typeNames
  rw [h]
  simp only [List.mem_append, List.mem_singleton]
  constructor
  · intro hl
    rw [(C62_names_fit_partial nChar t.key hn).1 (hl _ (.inl (.inl (.inl rfl)))),
      mapRes_copyName_ok hn fun n hm => hl n (.inl (.inl (.inr hm))),
      mapRes_copyName_ok hn fun n hm => hl n (.inl (.inr hm)), mapRes_copyName_ok hn fun n hm => hl n (.inr hm)]
    rfl
  · intro hl
    have dec : ∀ l : List Name, (∃ n ∈ l, nChar < (n.length : Int) + 1) ∨ ∀ n ∈ l, (n.length : Int) + 1 ≤ nChar := by
      intro l
      by_cases hc : ∃ n ∈ l, nChar < (n.length : Int) + 1
      · exact .inl hc
      · refine .inr fun n hm => ?_
        by_contra hc'
        exact hc ⟨n, hm, by omega⟩
    by_cases hk : nChar < (t.key.length : Int) + 1
    · rw [(C62_names_fit_partial nChar t.key hn).2 hk]; rfl
    rw [(C62_names_fit_partial nChar t.key hn).1 (by omega), Res.bind_ok]
    rcases dec t.inputs with hi | hi
    · rw [mapRes_copyName_throw hn hi]; rfl
    rw [mapRes_copyName_ok hn hi, Res.bind_ok]
    rcases dec t.controls with hc | hc
    · rw [mapRes_copyName_throw hn hc]; rfl
    rw [mapRes_copyName_ok hn hc, Res.bind_ok]
    rcases dec t.outputs with ho | ho
    · rw [mapRes_copyName_throw hn ho]; rfl
    obtain ⟨n, ((rfl | hm) | hm) | hm, hl⟩ := hl
    · exact absurd hl hk
    · exact absurd (hi n hm) (by omega)
    · exact absurd (hc n hm) (by omega)
    · exact absurd (ho n hm) (by omega)

theorem map_cstr {l : List Name} (h : ∀ n ∈ l, Plain n) : (l.map (· ++ ['\x00'])).map cstr = l := by
  rw [List.map_map]
  conv_rhs => rw [← List.map_id l]
  exact List.map_congr_left fun n hn => cstr_terminated (h n hn)

/-- C219, Python: the call returns the names of the type, as many as the sizes say, no two of them equal, none of
them with a slash, none of them the name of the lap time or of an integral quantity. Another type ends the process. -/
theorem C219_python (type : Name) (hp : Plain type) :
    (∀ t, VehicleNames.typeNamed type = some t →
      typeSizes type = .ret (t.inputs.length, t.controls.length, t.outputs.length) ∧
      typeNames type = .ret (t.key, t.inputs, t.controls, t.outputs) ∧
      ([t.key] ++ t.inputs ++ t.controls ++ t.outputs).Nodup ∧
      ∀ n ∈ [t.key] ++ t.inputs ++ t.controls ++ t.outputs, Plain n ∧ '/' ∉ n ∧ n ≠ "laptime".toList ∧
        ∀ q, n ≠ "integral_quantities.".toList ++ q) ∧
    (VehicleNames.typeNamed type = none → typeSizes type = .aborted ∧ typeNames type = .aborted) := by
  constructor
  · intro t h
    obtain ⟨hnd, hgood⟩ := VehicleNames.good_names h
    have hs : typeSizes type = .ret (t.inputs.length, t.controls.length, t.outputs.length) := by
      unfold typeSizes VehicleNames.typeSizes
      rw [cstr_plain hp, h]
      rfl
    refine ⟨hs, ?_, hnd, fun n hn => ?_⟩
    · unfold typeNames
      have hb := (C219_buffers 99 (by norm_num) type t h).1 fun n hn => by
        have := (hgood n hn).1
        omega
      have hg : ∀ l : List Name, (∀ n ∈ l, n ∈ VehicleNames.allNames t) → ∀ n ∈ l, Plain n :=
        fun l hl n hn => (hgood n (hl n hn)).2.1
      rw [hs, Py.bind_ret, cstr_plain hp, hb, ofC_ok, Py.bind_ret]
      simp only
      rw [cstr_terminated (hgood t.key (by simp [VehicleNames.allNames])).2.1,
        map_cstr (hg _ fun n hn => by simp [VehicleNames.allNames, hn]),
        map_cstr (hg _ fun n hn => by simp [VehicleNames.allNames, hn]),
        map_cstr (hg _ fun n hn => by simp [VehicleNames.allNames, hn])]
    · obtain ⟨-, g2, g3, g4, g5⟩ := hgood n hn
      refine ⟨g2, g3, g4, fun q hq => ?_⟩
      have := List.isPrefixOf_iff_prefix.2 (List.prefix_append integralPrefix q)
      rw [hq] at g5
      exact absurd (this.symm.trans g5) (by decide)
  · intro h
    have hs : typeSizes type = .aborted := by
      unfold typeSizes VehicleNames.typeSizes
      rw [cstr_plain hp, h]
      rfl
    exact ⟨hs, by unfold typeNames; rw [hs, Py.bind_aborted]⟩

example : ∃ q u o, typeNames "kart-6dof".toList = .ret ("road.arclength".toList, q, u, o) ∧ q.length = 13 ∧
    u = ["front-axle.steering-angle".toList, "rear-axle.throttle".toList] := by
  have h := (C219_types (K' := ℚ) (fun _ => 0) (fun _ => 0) (fun _ => 0) fun _ => 0).2.1
  exact ⟨_, _, _, ((C219_python "kart-6dof".toList (by unfold Plain; decide)).1 _ h).2.1, rfl, rfl⟩

example : typeNames "f1".toList = .aborted :=
  ((C219_python "f1".toList (by unfold Plain; decide)).2
    ((C219_types (K' := ℚ) (fun _ => 0) (fun _ => 0) (fun _ => 0) fun _ => 0).2.2 _ (by decide) (by decide))).2

/-! ## C218: what `optimal_laptime` returns -/

theorem saveLap_vehicles (r : Reg Kart F1 Track K) (job : LapJob K) :
    (saveLap r job).1.kart = r.kart ∧ (saveLap r job).1.f1 = r.f1 := by
  rcases saveLap_adds r job with h | ⟨-, h⟩
  · rw [h]; exact ⟨rfl, rfl⟩
  · exact ⟨h.kart, h.f1⟩

theorem lap_keeps_vehicles (lib : Name → Option (Name → Bool)) (n tn : Name) (w1 : Kart → Track → Kart)
    (w2 : F1 → Track → F1) (job : LapJob K) (r : Reg Kart F1 Track K) (m : Name) :
    ((step lib (.optimalLaptime n tn w1 w2 job) r).1.kart m).isSome = (r.kart m).isSome ∧
      ((step lib (.optimalLaptime n tn w1 w2 job) r).1.f1 m).isSome = (r.f1 m).isSome := by
  simp only [step]
  rcases h1 : r.kart n with _ | k
  · rcases h2 : r.f1 n with _ | k
    · exact ⟨rfl, rfl⟩
    · rcases r.track tn with _ | t
      · exact ⟨rfl, rfl⟩
      · simp only
        rw [(saveLap_vehicles _ job).1, (saveLap_vehicles _ job).2]
        refine ⟨rfl, ?_⟩
        simp only [overwrite]
        split <;> simp_all
  · rcases r.track tn with _ | t
    · exact ⟨rfl, rfl⟩
    · simp only
      rw [(saveLap_vehicles _ job).1, (saveLap_vehicles _ job).2]
      refine ⟨?_, rfl⟩
      simp only [overwrite]
      split <;> simp_all

theorem variableType_vehicle {r : Reg Kart F1 Track K} (hu : Unique r) {n type : Name} (hn : Plain n)
    (h : TypeOf r n type) : variableType n r = .ret type := by
  obtain ⟨-, -, -, -, h4, h5⟩ := variableType_eq hu hn
  have hs := hu n
  rcases h with ⟨h, rfl⟩ | ⟨h, rfl⟩
  · obtain ⟨x, hx⟩ := Option.isSome_iff_exists.1 h
    refine h5 x ?_
    unfold stored at hs ⊢
    rw [hx] at hs ⊢
    revert hs
    rcases r.kart n with _ | a <;> rcases r.vector n with _ | b <;> rcases r.track n with _ | c <;>
      rcases r.scalar n with _ | d <;> simp
  · obtain ⟨x, hx⟩ := Option.isSome_iff_exists.1 h
    refine h4 x ?_
    unfold stored at hs ⊢
    rw [hx] at hs ⊢
    revert hs
    rcases r.f1 n with _ | a <;> rcases r.vector n with _ | b <;> rcases r.track n with _ | c <;>
      rcases r.scalar n with _ | d <;> simp

theorem find_two {d e : LapOptions.Node} {a b : String} (h : LapOptions.find? d [a, b] = some e) :
    ∃ o, LapOptions.child? d a = some o ∧ LapOptions.child? o b = some e ∧ d.name = "options" := by
  unfold LapOptions.find? at h
  split at h
  · rename_i hd
    simp only [LapOptions.descend] at h
    rcases ho : LapOptions.child? d a with _ | o
    · rw [ho] at h; cases h
    · rw [ho] at h
      simp only at h
      rcases hb : LapOptions.child? o b with _ | e'
      · rw [hb] at h; cases h
      · rw [hb] at h
        exact ⟨o, rfl, hb.trans h, hd⟩
  · cases h

theorem find_two_none {d o : LapOptions.Node} {a b : String} (hd : d.name = "options")
    (ho : LapOptions.child? d a = some o) (h : LapOptions.find? d [a, b] = none) : LapOptions.child? o b = none := by
  unfold LapOptions.find? at h
  rw [if_pos hd] at h
  simp only [LapOptions.descend, ho] at h
  rcases hb : LapOptions.child? o b with _ | e'
  · rfl
  · rw [hb] at h; cases h

section
variable {K' : Type*} [Field K']

/-- C218, what holds: when the options ask for all the variables (`output_variables` with a prefix that is not empty and
without a list of variables) and the lap is computed, `optimal_laptime` returns the prefix and the names of the key,
the states, the controls and the outputs, and `download_variables` gives the values of the lap for them. What is missing:
the lap time and the integral quantities are saved but not returned; other options, see the theorems below. -/
theorem C218_all_variables_partial (lib : Name → Option (Name → Bool)) (T : LapOptions.Texts K')
    (car : LapOptions.CarType K') (tables : String → Option (List K')) (junkQ junkU : Transcription.Row K')
    (d p : LapOptions.Node) (c : LapOptions.Config K') (strip : String → String) (vehicle track type : Name)
    (w1 : Kart → Track → Kart) (w2 : F1 → Track → F1) (job : LapJob K) (r : Reg Kart F1 Track K)
    (hu : Unique r) (hv : Plain vehicle) (ht : TypeOf r vehicle type)
    (hcar : VehicleNames.typeNamed type = some (VehicleNames.namesOf car))
    (hconf : LapOptions.configure T car tables junkQ junkU (.doc d) = .ok c) (hask : Asked c job)
    (hpre : LapOptions.find? d ["output_variables", "prefix"] = some p) (htext : p.text ≠ "")
    (hplain : Plain (strip p.text).toList)
    (hstrip : strip p.text = T.trim p.text) (hvars : LapOptions.find? d ["output_variables", "variables"] = none)
    (hslash : OutputNamesWithoutSlash job)
    (hok : (step lib (.optimalLaptime vehicle (cstr track) w1 w2 job) r).2 = .ok .unit)
    (hs : ∀ v x, job.vec v = some x → x.length < 2 ^ 31) :
    let vars := [car.key.toList] ++ car.inputs.map String.toList ++ car.controls.map String.toList ++
      car.outputs.map String.toList
    let after := (optimalLaptime lib strip vehicle track (.doc d) w1 w2 job r).1
    (optimalLaptime lib strip vehicle track (.doc d) w1 w2 job r).2 = .ret (job.pre, vars) ∧
    ("laptime".toList ∈ job.vars ∧ "laptime".toList ∉ vars) ∧
    ∃ dict, downloadVariables job.pre vars after = .ret dict ∧
      ∀ v ∈ vars, ∃ x, job.vec v = some x ∧ dict v = some (.arr x) := by
  intro vars after
  obtain ⟨o, ho, hp', hd⟩ := find_two hpre
  have hno := find_two_none hd ho hvars
  have hty : Plain type := by
    rcases ht with ⟨-, rfl⟩ | ⟨-, rfl⟩ <;> (unfold Plain; decide)
  have htypeu : typeNames type = .ret (car.key.toList, car.inputs.map String.toList, car.controls.map String.toList,
      car.outputs.map String.toList) ∧ _ := ((C219_python type hty).1 _ hcar).2
  obtain ⟨htn, -, hgood⟩ := htypeu
  have hafter : after = (step lib (.optimalLaptime vehicle (cstr track) w1 w2 job) r).1 := by
    show (optimalLaptime lib strip vehicle track (.doc d) w1 w2 job r).1 = _
    unfold optimalLaptime
    rw [cstr_plain hv]
  have hu' : Unique after := by
    rw [hafter]
    exact C28_call_keeps_names_unique lib (.optimalLaptime vehicle (cstr track) w1 w2 job) hslash r hu
  have ht' : TypeOf after vehicle type := by
    obtain ⟨k1, k2⟩ := lap_keeps_vehicles lib vehicle (cstr track) w1 w2 job r vehicle
    rw [hafter]
    rcases ht with ⟨h, e⟩ | ⟨h, e⟩
    · exact .inl ⟨by rw [k2]; exact h, e⟩
    · exact .inr ⟨by rw [k1]; exact h, e⟩
  have hkeys : (car.inputs ++ car.controls).Nodup := by
    have hnd := ((C219_python type hty).1 _ hcar).2.2.1
    simp only [VehicleNames.namesOf] at hnd
    have h1 := List.Nodup.of_append_left hnd
    rw [List.append_assoc] at h1
    have h2 := List.Nodup.of_append_right h1
    rw [← List.map_append] at h2
    exact List.Nodup.of_map _ h2
  obtain ⟨-, -, hout⟩ := LapOptions.C170_outputs T car tables junkQ junkU d c hkeys hconf
  have hne : LapOptions.find? d ["output_variables"] ≠ none := by
    unfold LapOptions.find?
    rw [if_pos hd]
    simp [LapOptions.descend, ho]
  obtain ⟨⟨p', hp1, hp2⟩, -, hall⟩ := hout hne
  have hall := hall hvars
  rw [hpre] at hp1
  obtain rfl := Option.some.inj hp1
  have hjp : job.pre = (strip p.text).toList := by rw [hask.1, hp2, hstrip]
  have hmem : ∀ v ∈ vars, v ∈ job.vars := by
    intro v hv
    rw [hask.2]
    simp only [vars, List.mem_append, List.mem_singleton, List.mem_map] at hv
    rw [List.mem_map]
    rcases hv with ((rfl | ⟨w, hw, rfl⟩) | ⟨w, hw, rfl⟩) | ⟨w, hw, rfl⟩
    · exact ⟨_, (hall _).2 (.inl rfl), rfl⟩
    · exact ⟨_, (hall _).2 (.inr (.inl hw)), rfl⟩
    · exact ⟨_, (hall _).2 (.inr (.inr (.inl hw))), rfl⟩
    · exact ⟨_, (hall _).2 (.inr (.inr (.inr (.inl hw)))), rfl⟩
  have hgv : ∀ n ∈ vars, Plain n ∧ '/' ∉ n ∧ n ≠ "laptime".toList ∧ ∀ q, n ≠ "integral_quantities.".toList ++ q :=
    hgood
  refine ⟨?_, ⟨?_, fun h => (hgv _ h).2.2.1 rfl⟩, ?_⟩
  · have hvt := variableType_vehicle hu' hv ht'
    rw [hafter] at hvt
    simp only [optimalLaptime, cstr_plain hv, hok, ofC_ok, Py.bind_ret]
    rw [hvt, Py.bind_ret, htn]
    unfold requested
    rw [ho]
    simp only
    rw [hno, hp']
    simp only [Py.bind_ret]
    rw [if_neg htext, hjp]
  · rw [hask.2, List.mem_map]
    exact ⟨"laptime", (hall _).2 (.inr (.inr (.inr (.inr (.inl rfl))))), rfl⟩
  · have hveh : (r.kart vehicle).isSome ∨ (r.f1 vehicle).isSome := by
      rcases ht with ⟨h, -⟩ | ⟨h, -⟩
      · exact .inr h
      · exact .inl h
    have hval : ∀ v ∈ vars, ∃ x, job.vec v = some x ∧ Holds after (job.pre ++ v) (.arr x) := by
      intro v hv
      obtain ⟨-, -, h3⟩ := C63_lap_saves_requested lib vehicle (cstr track) w1 w2 job r hveh hok v (hmem v hv)
      obtain ⟨x, hx, hx'⟩ := h3 (hgv v hv).2.2.1 (hgv v hv).2.2.2
      rw [← hafter] at hx'
      exact ⟨x, hx, stored_of_vector hu' hx'⟩
    have hpl : ∀ v ∈ vars, Plain (job.pre ++ v) := by
      intro v hv
      unfold Plain
      rw [List.mem_append, not_or]
      exact ⟨by rw [hjp]; exact hplain, (hgv v hv).1⟩
    obtain ⟨dict, h1, h2, -⟩ := downloadLoop_held hu' job.pre vars hpl
      (fun v hv => (hval v hv).elim fun x hx => ⟨_, hx.2, fun l hl => Item.arr.inj hl ▸ hs v x hx.1⟩) fun _ => none
    refine ⟨dict, h1, fun v hv => ?_⟩
    obtain ⟨x, hx, hh⟩ := hval v hv
    obtain ⟨y, hy, hd'⟩ := h2 v hv
    exact ⟨x, hx, by rw [hd', hy.unique hh]⟩

end

/-- C218 is false for a list of variables: the returned list is empty when the listed elements have no children, as
they do in the documented form, whatever they are. -/
theorem C218_false_listed (lib : Name → Option (Name → Bool)) (d o v p : LapOptions.Node) (strip : String → String)
    (vehicle track : Name) (w1 : Kart → Track → Kart) (w2 : F1 → Track → F1) (job : LapJob K) (r : Reg Kart F1 Track K)
    (ho : LapOptions.child? d "output_variables" = some o) (hv : LapOptions.child? o "variables" = some v)
    (hp : LapOptions.child? o "prefix" = some p) (htext : p.text ≠ "") (hne : v.children ≠ [])
    (hleaf : ∀ e ∈ v.children, e.children = [])
    (hok : (step lib (.optimalLaptime (cstr vehicle) (cstr track) w1 w2 job) r).2 = .ok .unit) :
    (optimalLaptime lib strip vehicle track (.doc d) w1 w2 job r).2 = .ret ((strip p.text).toList, []) := by
  simp only [optimalLaptime, hok, ofC_ok, Py.bind_ret]
  unfold requested
  rw [ho]
  simp only
  rw [hv, hp]
  rcases hc : v.children with _ | ⟨e, l⟩
  · exact absurd hc hne
  · have he := hleaf e (by simp [hc])
    simp [hc, he, htext]

/-- C218 is false without `output_variables` and with no options at all: the lap is computed and then an exception is
raised. -/
theorem C218_false_raised (lib : Name → Option (Name → Bool)) (strip : String → String) (vehicle track : Name)
    (w1 : Kart → Track → Kart) (w2 : F1 → Track → F1) (job : LapJob K) (r : Reg Kart F1 Track K)
    (hok : (step lib (.optimalLaptime (cstr vehicle) (cstr track) w1 w2 job) r).2 = .ok .unit) :
    (∀ options, (options = .empty ∨ ∃ d, options = .doc d ∧ LapOptions.child? d "output_variables" = none) →
      (optimalLaptime lib strip vehicle track options w1 w2 job r).2 = .raised ∧
      (optimalLaptime lib strip vehicle track options w1 w2 job r).1 =
        (step lib (.optimalLaptime (cstr vehicle) (cstr track) w1 w2 job) r).1) := by
  intro options h
  refine ⟨?_, rfl⟩
  simp only [optimalLaptime, hok, ofC_ok, Py.bind_ret]
  rcases h with rfl | ⟨d, rfl, h⟩
  · rfl
  · simp only [requested, h]

/-- C218 is false with an empty prefix, which the library accepts: the lap is computed and nothing is returned. If the variables
are listed an exception is raised. -/
theorem C218_false_empty_prefix (lib : Name → Option (Name → Bool)) (strip : String → String) (vehicle track : Name)
    (w1 : Kart → Track → Kart) (w2 : F1 → Track → F1) (job : LapJob K) (r : Reg Kart F1 Track K) (d o p : LapOptions.Node)
    (hok : (step lib (.optimalLaptime (cstr vehicle) (cstr track) w1 w2 job) r).2 = .ok .unit)
    (ho : LapOptions.child? d "output_variables" = some o) (hp : LapOptions.child? o "prefix" = some p) (htext : p.text = "") :
    (∀ x, (optimalLaptime lib strip vehicle track (.doc d) w1 w2 job r).2 ≠ .ret x) ∧
    (∀ v, LapOptions.child? o "variables" = some v →
      (optimalLaptime lib strip vehicle track (.doc d) w1 w2 job r).2 = .raised) ∧
    (optimalLaptime lib strip vehicle track (.doc d) w1 w2 job r).1 =
      (step lib (.optimalLaptime (cstr vehicle) (cstr track) w1 w2 job) r).1 := by
  have key : ∀ l : Py (List Name), ∀ x : Name × List Name, (l.bind fun _ => (.raised : Py (Name × List Name))) ≠ .ret x := by
    intro l x
    cases l <;> simp [Py.bind]
  refine ⟨fun x => ?_, fun v hv => ?_, rfl⟩
  · simp only [optimalLaptime, hok, ofC_ok, Py.bind_ret, requested, ho, hp, htext, if_true]
    exact key _ x
  · simp only [optimalLaptime, hok, ofC_ok, Py.bind_ret, requested, ho, hp, htext, if_true, hv]
    rcases v.children with _ | ⟨e, l⟩
    · rfl
    · by_cases he : e.children.isEmpty <;> simp [he, Py.bind]

theorem vectorPairs_some {job : LapJob K} {l : List Name} (h : ∀ v ∈ l, (job.vec v).isSome) :
    ∃ x, vectorPairs job l = some x := by
  induction l with
  | nil => exact ⟨[], rfl⟩
  | cons v l ih =>
    obtain ⟨x, hx⟩ := ih fun w hw => h w (by simp [hw])
    obtain ⟨y, hy⟩ := Option.isSome_iff_exists.1 (h v (by simp))
    exact ⟨_, by simp only [vectorPairs, hx, hy]; rfl⟩

/-- A computed lap whose names are free and whose values are all known is saved. -/
theorem lap_returns {lib : Name → Option (Name → Bool)} {n tn : Name} {w1 : Kart → Track → Kart}
    {w2 : F1 → Track → F1} {job : LapJob K} {r : Reg Kart F1 Track K} {k : Kart} (hk : r.kart n = some k)
    {t : Track} (ht : r.track tn = some t) (hs : job.solved = .ok ()) (hsens : job.sens = false)
    (hfree : ∀ v ∈ job.vars, taken { r with kart := overwrite r.kart n (w1 k t) } (job.pre ++ v) = false)
    (hint : ∀ v ∈ job.vars, integralPrefix.isPrefixOf v = false)
    (hvec : ∀ v ∈ job.vars, v ≠ "laptime".toList → (job.vec v).isSome) :
    (step lib (.optimalLaptime n tn w1 w2 job) r).2 = .ok .unit := by
  simp only [step, hk, ht]
  unfold saveLap
  rw [hs]
  simp only
  have h1 : lapNamesTaken { r with kart := overwrite r.kart n (w1 k t) } job = false := by
    unfold lapNamesTaken
    rw [List.any_eq_false]
    intro v hv
    rw [hfree v hv, hsens]
    simp
  have h2 : integralVars job = [] := by
    unfold integralVars
    rw [List.filter_eq_nil_iff]
    intro v hv
    rw [hint v hv]
    simp
  obtain ⟨x, hx⟩ : ∃ x, vectorPairs job (vectorVars job) = some x := by
    refine vectorPairs_some fun v hv => ?_
    unfold vectorVars at hv
    rw [List.mem_filter] at hv
    exact hvec v hv.1 (by simp only [decide_eq_true_eq] at hv; exact hv.2.1)
  rw [h1, h2, hx]
  rfl

/-- Options that ask for everything, with the prefix `run/`. -/
def sampleOptions : LapOptions.Node :=
  .mk "options" "" [] [.mk "output_variables" "" [] [LapOptions.leaf "prefix" "run/"]]

/-- A kart without bounds. -/
def sampleKart : LapOptions.CarType ℚ :=
  LapOptions.kartType VehicleNames.outputNames (fun _ => 0) (fun _ => 0) (fun _ => 0) fun _ => 0

/-- A lap with the value 1 for everything. -/
def sampleJob : LapJob ℤ where
  pre := "run/".toList
  vars := (LapOptions.allVariables sampleKart).map String.toList
  sens := false
  aliases := []
  solved := .ok ()
  laptime := 84
  dlaptime := fun _ => 0
  integral := fun _ => none
  vec := fun v => if '/' ∈ v then none else some [1]
  dvec := fun _ _ => []

/-- A kart `car` and a track `circuit`. -/
def sampleTables : Reg Unit Unit Unit ℤ where
  kart := fun n => if n = "car".toList then some () else none
  f1 := fun _ => none
  track := fun n => if n = "circuit".toList then some () else none
  scalar := fun _ => none
  vector := fun _ => none

theorem sampleTables_unique : Unique sampleTables := by
  intro n
  unfold stored sampleTables
  simp only
  by_cases h1 : n = "car".toList
  · subst h1; decide
  · rw [if_neg h1]
    split <;> simp

theorem sampleKart_names : VehicleNames.typeNamed "kart-6dof".toList = some (VehicleNames.namesOf sampleKart) :=
  (C219_types (K' := ℚ) (fun _ => 0) (fun _ => 0) (fun _ => 0) fun _ => 0).2.1

theorem mem_allVariables {K' : Type*} {car : LapOptions.CarType K'} {v : Name}
    (h : v ∈ (LapOptions.allVariables car).map String.toList) :
    v ∈ [(VehicleNames.namesOf car).key] ++ (VehicleNames.namesOf car).inputs ++
        (VehicleNames.namesOf car).controls ++ (VehicleNames.namesOf car).outputs ∨ v = "laptime".toList ∨
      v ∈ (car.quantities.map fun q => "integral_quantities." ++ q).map String.toList := by
  simp only [LapOptions.allVariables, List.map_append, List.mem_append] at h
  rcases h with (h | h) | h
  · simp only [List.mem_append]
    exact .inl h
  · exact .inr (.inl (by simpa using h))
  · exact .inr (.inr h)

theorem sampleJob_vars {v : Name} (h : v ∈ sampleJob.vars) :
    v = "laptime".toList ∨ ('/' ∉ v ∧ ∀ q, v ≠ integralPrefix ++ q) := by
  have hg := ((C219_python "kart-6dof".toList (by unfold Plain; decide)).1 _ sampleKart_names).2.2.2
  rcases mem_allVariables (car := sampleKart) h with h' | h' | h'
  · exact .inr ⟨(hg v h').2.1, (hg v h').2.2.2⟩
  · exact .inl h'
  · exact absurd h' (by simp [sampleKart, LapOptions.kartType])

theorem sampleLap_returns : (step (fun _ => none) (.optimalLaptime "car".toList (cstr "circuit".toList) (fun _ _ => ())
    (fun _ _ => ()) sampleJob) sampleTables).2 = .ok .unit := by
  rw [cstr_plain (by unfold Plain; decide)]
  refine lap_returns (k := ()) (t := ()) rfl rfl rfl rfl ?_ ?_ ?_
  · intro v _
    have hne : ∀ t : Name, t.head? = some 'c' → "run/".toList ++ v ≠ t := by
      intro t ht he
      rw [← he] at ht
      exact absurd ht (by simp)
    have h1 := hne "car".toList rfl
    have h2 := hne "circuit".toList rfl
    simp only [sampleJob, sampleTables, taken, overwrite, if_neg h1, if_neg h2]
    rfl
  · intro v hv
    rcases sampleJob_vars hv with rfl | ⟨-, h⟩
    · decide
    · by_contra hc
      obtain ⟨q, hq⟩ : integralPrefix <+: v := by simpa using hc
      exact h q hq.symm
  · intro v hv hl
    rcases sampleJob_vars hv with rfl | ⟨h, -⟩
    · exact absurd rfl hl
    · simp [sampleJob, h]

/-- A lap of the kart `car` on `circuit`, saved under `run/`. -/
example : ∃ dict : Name → Option (Item ℤ),
    (optimalLaptime (fun _ => none) id "car".toList "circuit".toList (.doc sampleOptions) (fun _ _ => ())
      (fun _ _ => ()) sampleJob sampleTables).2 = .ret ("run/".toList, [sampleKart.key.toList] ++
        sampleKart.inputs.map String.toList ++ sampleKart.controls.map String.toList ++
        sampleKart.outputs.map String.toList) ∧
    downloadVariables "run/".toList ([sampleKart.key.toList] ++ sampleKart.inputs.map String.toList ++
      sampleKart.controls.map String.toList ++ sampleKart.outputs.map String.toList)
      (optimalLaptime (fun _ => none) id "car".toList "circuit".toList (.doc sampleOptions) (fun _ _ => ())
        (fun _ _ => ()) sampleJob sampleTables).1 = .ret dict ∧
    dict "chassis.velocity.x".toList = some (.arr [1]) := by
  obtain ⟨c, hc, ha⟩ : ∃ c, LapOptions.configure LapOptions.sampleTexts sampleKart (fun _ => none) (fun _ => 0)
      (fun _ => 0) (.doc sampleOptions) = .ok c ∧ Asked c sampleJob := ⟨_, rfl, rfl, rfl⟩
  obtain ⟨h1, -, dict, h2, h3⟩ := C218_all_variables_partial (fun _ => none) LapOptions.sampleTexts sampleKart
    (fun _ => none) (fun _ => 0) (fun _ => 0) sampleOptions (LapOptions.leaf "prefix" "run/") c id "car".toList
    "circuit".toList "kart-6dof".toList (fun _ _ => ()) (fun _ _ => ()) sampleJob sampleTables sampleTables_unique
    (by unfold Plain; decide) (.inr ⟨rfl, rfl⟩) sampleKart_names hc ha rfl (by decide) (by unfold Plain; decide) rfl
    rfl (fun v hv hs => by simp [sampleJob, hs] at hv) sampleLap_returns
    (fun v x h => by
      simp only [sampleJob] at h
      split at h
      · cases h
      · obtain rfl := Option.some.inj h; simp)
  refine ⟨dict, h1, h2, ?_⟩
  obtain ⟨x, hx, hd⟩ := h3 "chassis.velocity.x".toList (by
    have : "chassis.velocity.x" ∈ sampleKart.inputs := by decide +kernel
    simp only [List.mem_append]
    exact .inl (.inl (.inr (List.mem_map.2 ⟨_, this, rfl⟩))))
  rw [hd]
  obtain rfl : [1] = x := by simpa [sampleJob] using hx
  rfl

/-- C218: a lap with an empty prefix. -/
example (strip : String → String) (x : Name × List Name) : (optimalLaptime (fun _ => none) strip "car".toList "circuit".toList
    (.doc (.mk "options" "" [] [.mk "output_variables" "" [] [LapOptions.leaf "prefix" ""]])) (fun _ _ => ()) (fun _ _ => ())
    sampleJob sampleTables).2 ≠ .ret x :=
  (C218_false_empty_prefix (fun _ => none) strip "car".toList "circuit".toList (fun _ _ => ()) (fun _ _ => ()) sampleJob sampleTables _
    (.mk "output_variables" "" [] [LapOptions.leaf "prefix" ""]) (LapOptions.leaf "prefix" "")
    (by rw [cstr_plain (n := "car".toList) (by unfold Plain; decide)]; exact sampleLap_returns) rfl rfl rfl).1 x

/-! ## C220: `gg_diagram` -/

section
variable {S : Steady.SolverAD ℝ} {karts f1s : Name → Option SteadyVehicles.Entry} {name : Name}

/-- C220, what holds: for a vehicle that exists, when the library returns, the four arrays have the requested number
of points, the lateral and longitudinal accelerations are those of the diagram of the vehicle in units of 9.81, and
`ay_minus` is the negative of `ay`. What is missing: unknown vehicles, see `C220_false`. -/
theorem C220_diagram_partial (hp : Plain name) (e : SteadyVehicles.Entry)
    (he : SteadyVehicles.vehicleNamed karts f1s name = some e) (v : ℝ) (n : Nat)
    (ay ayMinus axMax axMin : List ℝ) (h : ggDiagram S karts f1s name v n = .ret (ay, ayMinus, axMax, axMin)) :
    ∃ mx mn, Steady.ggAD e.car S v n = .ok (mx, mn) ∧ ay.length = n ∧ ayMinus.length = n ∧ axMax.length = n ∧
      axMin.length = n ∧ ∀ k, k < n → ∃ a b, mx[k]? = some a ∧ mn[k]? = some b ∧
        ay[k]? = some (a.ay / 9.81) ∧ ayMinus[k]? = some (-(a.ay / 9.81)) ∧ axMax[k]? = some (a.ax / 9.81) ∧
        axMin[k]? = some (b.ax / 9.81) := by
  unfold ggDiagram at h
  simp only [cstr_plain hp] at h
  obtain ⟨a, ha⟩ : ∃ a, a = SteadyVehicles.ggDiagram S karts f1s name v n
    (List.replicate n (0 : ℝ), List.replicate n (0 : ℝ), List.replicate n (0 : ℝ)) := ⟨_, rfl⟩
  rw [← ha] at h
  rcases hr : a.result with u | _ | _
  · rw [hr, ofC_ok, Py.bind_ret] at h
    have hres : (SteadyVehicles.ggDiagram S karts f1s name v n
      (List.replicate n (0 : ℝ), List.replicate n (0 : ℝ), List.replicate n (0 : ℝ))).result = .ok () := by
      rw [← ha, hr]
    obtain ⟨mx, mn, hgg, hout, hin⟩ := SteadyVehicles.diagram_written he hres
    rw [← ha] at hout hin
    have hlen : ∀ l : List ℝ, (∀ k, n ≤ k → l[k]? = (List.replicate n (0 : ℝ))[k]?) → (∀ k, k < n → ∃ x, l[k]? = some x) →
        l.length = n := by
      intro l h1 h2
      apply le_antisymm
      · have := h1 n le_rfl
        rw [List.getElem?_eq_none (l := List.replicate n (0 : ℝ)) (by simp)] at this
        exact List.getElem?_eq_none_iff.1 this
      · by_contra hc
        obtain ⟨x, hx⟩ := h2 l.length (by omega)
        rw [List.getElem?_eq_none le_rfl] at hx
        cases hx
    have l1 := hlen a.mem.1 (fun k hk => (hout k hk).1) fun k hk => by
      obtain ⟨x, y, -, -, h1, -, -⟩ := hin k hk; exact ⟨_, h1⟩
    have l2 := hlen a.mem.2.1 (fun k hk => (hout k hk).2.1) fun k hk => by
      obtain ⟨x, y, -, -, -, h1, -⟩ := hin k hk; exact ⟨_, h1⟩
    have l3 := hlen a.mem.2.2 (fun k hk => (hout k hk).2.2) fun k hk => by
      obtain ⟨x, y, -, -, -, -, h1⟩ := hin k hk; exact ⟨_, h1⟩
    have := Py.ret.inj h
    simp only [Prod.mk.injEq] at this
    obtain ⟨rfl, rfl, rfl, rfl⟩ := this
    refine ⟨mx, mn, hgg, by simp [l1], by simp [l1], by simp [l2], by simp [l3], fun k hk => ?_⟩
    obtain ⟨x, y, h1, h2, h3, h4, h5⟩ := hin k hk
    have hg : (981 / 100 : ℝ) = 9.81 := by norm_num
    refine ⟨x, y, h1, h2, ?_, ?_, ?_, ?_⟩ <;> simp [h3, h4, h5, hg]
  · rw [hr] at h; cases h
  · rw [hr] at h; cases h

/-- C220, the call returns for every vehicle and every number of points when the largest lateral acceleration found is
positive. -/
theorem C220_returns (hp : Plain name) (e : SteadyVehicles.Entry)
    (he : SteadyVehicles.vehicleNamed karts f1s name = some e) (hproper : e.car.Proper) (hS : Steady.Sized S) (v : ℝ)
    (n : Nat) (hn : 0 < n) (lat : SteadyVehicles.State) (hlat : Steady.maxLatAD e.car S v = .ok lat) (hpos : 0 < lat.ay) :
    ∃ x, ggDiagram S karts f1s name v n = .ret x := by
  have h := (SteadyVehicles.C199_defined e he hproper hS v n
    (List.replicate n (0 : ℝ), List.replicate n (0 : ℝ), List.replicate n (0 : ℝ)) hn (by simp) (by simp) (by simp) lat
    hlat hpos).1
  unfold ggDiagram
  simp only [cstr_plain hp]
  rw [h]
  exact ⟨_, rfl⟩

/-- C220 is false for an unknown vehicle: the call returns a diagram of zeros. -/
theorem C220_false (hp : Plain name) (hk : karts name = none) (hf : f1s name = none) (v : ℝ) (n : Nat) :
    ggDiagram S karts f1s name v n =
      .ret (List.replicate n 0, List.replicate n 0, List.replicate n 0, List.replicate n 0) := by
  simp [ggDiagram, cstr_plain hp, SteadyVehicles.ggDiagram, SteadyVehicles.vehicleNamed, hk, hf]

end

/-- The diagram of an F1 car with a solver that never succeeds, 3 points. -/
example (c : Verif.F1.Car) (bias0 : ℝ) (junk : Nat → ℝ) (junkLimits : Nat → Verif.F1.Limits) (hg : 0 < c.chassis.g0) :
    ∃ ay ayMinus axMax axMin, ggDiagram SteadyVehicles.hopeless (fun _ => none)
      (fun _ => some (SteadyVehicles.f1Entry c bias0 junk junkLimits)) "car".toList 50 3 =
        .ret (ay, ayMinus, axMax, axMin) ∧ ayMinus.length = 3 := by
  have hp : Plain "car".toList := by unfold Plain; decide
  have h := (SteadyVehicles.C199_false (karts := fun _ => none)
    (f1s := fun _ => some (SteadyVehicles.f1Entry c bias0 junk junkLimits)) (name := "car".toList) _ rfl
    (SteadyVehicles.f1_proper c bias0 junk junkLimits) hg 50 3
    (List.replicate 3 (0 : ℝ), List.replicate 3 (0 : ℝ), List.replicate 3 (0 : ℝ)) (by norm_num) (by simp) (by simp)
    (by simp)).2.1
  obtain ⟨x, hx⟩ : ∃ x, ggDiagram SteadyVehicles.hopeless (fun _ => none)
      (fun _ => some (SteadyVehicles.f1Entry c bias0 junk junkLimits)) "car".toList 50 3 = .ret x := by
    unfold ggDiagram
    simp only [cstr_plain hp]
    rw [h]
    exact ⟨_, rfl⟩
  obtain ⟨-, -, -, -, h2, -⟩ := C220_diagram_partial hp _ rfl 50 3 x.1 x.2.1 x.2.2.1 x.2.2.2 hx
  exact ⟨_, _, _, _, hx, h2⟩

/-! ## C221: the coordinates of a track -/

/-- C221: for a track whose arrays have one entry per point, `track_coordinates` returns the coordinates of the
centreline, of the left and of the right boundary and the heading, all of them with one entry per point, and
`track_download_data` returns any of the eleven variables. An unknown track or variable ends the process. -/
theorem C221_track (tracks : Name → Option (TrackData K)) (track : Name) (hp : Plain track) :
    (∀ t, tracks track = some t → t.nPoints < 2 ^ 31 → t.arclength.length = t.nPoints → t.yaw.length = t.nPoints →
      t.yawDot.length = t.nPoints → t.nl.length = t.nPoints → t.nr.length = t.nPoints →
      t.centerline.length = t.nPoints → t.left.length = t.nPoints → t.right.length = t.nPoints →
      trackCoordinates tracks track = .ret (t.centerline.map Prod.fst, t.centerline.map Prod.snd, t.left.map Prod.fst,
        t.left.map Prod.snd, t.right.map Prod.fst, t.right.map Prod.snd, t.yaw) ∧
      (∀ p ∈ trackTable t, trackData tracks track p.1 = .ret p.2 ∧ p.2.length = t.nPoints) ∧
      (∀ var, Plain var → var ∉ (trackTable t).map Prod.fst → trackData tracks track var = .aborted)) ∧
    (tracks track = none → trackCoordinates tracks track = .aborted ∧
      ∀ var, trackData tracks track var = .aborted) := by
  constructor
  · intro t ht hn h1 h2 h3 h4 h5 h6 h7 h8
    obtain ⟨g1, g2⟩ := (C34_track_download t t.nPoints (by omega) (by omega) h1 h2 h3 h4 h5 h6 h7 h8).2 rfl
    have key : ∀ var, Plain var → trackData tracks track var = ofC (trackDownload t t.nPoints var) := by
      intro var hv
      unfold trackData
      rw [cstr_plain hp, ht]
      simp only
      rw [cInt_small hn, if_neg (by omega), cInt_small hn, cstr_plain hv]
    have hall : ∀ p ∈ trackTable t, trackData tracks track p.1 = .ret p.2 ∧ p.2.length = t.nPoints := by
      intro p hm
      have hpl : Plain p.1 := by
        have : p.1 ∈ (trackTable t).map Prod.fst := List.mem_map_of_mem hm
        simp only [trackTable, List.map_cons, List.map_nil, List.mem_cons, List.not_mem_nil, or_false] at this
        unfold Plain
        rcases this with h | h | h | h | h | h | h | h | h | h | h <;> rw [h] <;> decide
      rw [key _ hpl, (g1 p hm).1]
      exact ⟨rfl, by have := (g1 p hm).2; omega⟩
    refine ⟨?_, hall, fun var hv hm => by rw [key var hv, g2 var hm]; rfl⟩
    unfold trackCoordinates
    rw [(hall ("centerline.x".toList, t.centerline.map Prod.fst) (by simp [trackTable])).1,
      (hall ("centerline.y".toList, t.centerline.map Prod.snd) (by simp [trackTable])).1,
      (hall ("left.x".toList, t.left.map Prod.fst) (by simp [trackTable])).1,
      (hall ("left.y".toList, t.left.map Prod.snd) (by simp [trackTable])).1,
      (hall ("right.x".toList, t.right.map Prod.fst) (by simp [trackTable])).1,
      (hall ("right.y".toList, t.right.map Prod.snd) (by simp [trackTable])).1,
      (hall ("heading-angle".toList, t.yaw) (by simp [trackTable])).1]
    rfl
  · intro h
    have key : ∀ var, trackData tracks track var = .aborted := by
      intro var
      unfold trackData
      rw [cstr_plain hp, h]
    refine ⟨?_, key⟩
    unfold trackCoordinates
    rw [key, Py.bind_aborted]

/-- A track with two points. -/
example : trackCoordinates (K := ℤ) (fun n => if n = "c".toList then some ⟨2, [0, 1], [2, 3], [4, 5], [6, 7], [8, 9],
    [(1, 2), (3, 4)], [(5, 6), (7, 8)], [(9, 10), (11, 12)]⟩ else none) "c".toList =
    .ret ([1, 3], [2, 4], [5, 7], [6, 8], [9, 11], [10, 12], [2, 3]) :=
  ((C221_track _ "c".toList (by unfold Plain; decide)).1 ⟨2, [0, 1], [2, 3], [4, 5], [6, 7], [8, 9],
    [(1, 2), (3, 4)], [(5, 6), (7, 8)], [(9, 10), (11, 12)]⟩ rfl (by norm_num) rfl rfl rfl rfl rfl rfl rfl rfl).1

end Verif.Python
