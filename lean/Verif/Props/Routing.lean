import Verif.Lemmas.RoutingHistory
import Mathlib.Tactic.NormNum

/-! Property theorems C55, C97-C102: the parameters of the F1 car, by path. -/

set_option autoImplicit false

namespace Verif.Routing

open Spec
open Parameter (Param Decl eval)

variable {K : Type*}

theorem mem_toList {s : String} {l : List String} : s.toList ∈ l.map String.toList ↔ s ∈ l := by
  constructor
  · intro h
    obtain ⟨t, ht, e⟩ := List.mem_map.1 h
    exact String.toList_inj.1 e ▸ ht
  · exact fun h => List.mem_map_of_mem h

theorem mem_required {s : String} (h : s ∈ chassisPaths ++ axlePaths ++ tyrePaths ++ powerPaths) :
    s.toList ∈ required := mem_toList.2 h

theorem mem_documented {s : String} (h : s ∈ chassisPaths ++ axlePaths ++ tyrePaths ++ powerPaths ++ windPaths) :
    s.toList ∈ documented := mem_toList.2 h

theorem notMem_documented {s : String} (h : s ∉ chassisPaths ++ axlePaths ++ tyrePaths ++ powerPaths ++ windPaths) :
    s.toList ∉ documented := fun h' => h (mem_toList.1 h')

/-! ### C97: setting a parameter by its path -/

/-- In whatever state previous calls have left the car, a call succeeds exactly when the path is one of the
documented parameters, and throws otherwise. -/
theorem C97_accepts [Field K] (init : Path → K) (h : List (Path × K)) (p : Path) (v : K) :
    (p ∈ documented → ∃ c', (run (freshCar init) h).setParameter p v = .ok c') ∧
    (p ∉ documented → (run (freshCar init) h).setParameter p v = .throw) := by
  rw [freshCar_hist, run_hist, ← carKeys_documented]
  exact ⟨fun hp => ⟨_, setHist_mem _ _ _ _ v hp⟩, fun hp => setHist_notMem _ _ _ _ v hp⟩

/-- A call that succeeds gives the value to every number stored under the path and changes no other. -/
theorem C97_changes_exactly [Field K] (init : Path → K) (h : List (Path × K)) (p : Path) (v : K) (c' : Car K)
    (hc : (run (freshCar init) h).setParameter p v = .ok c') :
    slots c' = (slots (run (freshCar init) h)).map fun s => if s.1 = p then (s.1, v) else s := by
  rw [freshCar_hist, run_hist] at hc ⊢
  have hp : p ∈ carKeys := by
    by_contra hp
    rw [setHist_notMem _ _ _ _ v hp] at hc
    cases hc
  rw [setHist_mem _ _ _ _ v hp, Res.ok.injEq] at hc
  rw [← hc, slots_hist, slots_hist, List.map_map]
  refine List.map_congr_left fun q _ => ?_
  simp only [Function.comp, at_]
  split_ifs <;> rfl

/-- After any history of calls the car holds at each documented path the value it was last given. -/
theorem C97_last_value [Field K] (init : Path → K) (h : List (Path × K)) (q : Path) (hq : q ∈ documented) (x : K) :
    (q, x) ∈ slots (run (freshCar init) h) ↔ x = lastSet init h q := by
  rw [freshCar_hist, run_hist, mem_slots_hist, carKeys_documented]
  exact ⟨fun h => h.2, fun h => ⟨hq, h⟩⟩

/-- Both tyres of an axle get the value. -/
theorem C97_both_tyres [Field K] (init : Path → K) (h : List (Path × K)) :
    tyreSlots (run (freshCar init) h).front.left = tyreSlots (run (freshCar init) h).front.right ∧
    tyreSlots (run (freshCar init) h).rear.left = tyreSlots (run (freshCar init) h).rear.right := by
  rw [freshCar_hist, run_hist]
  exact ⟨rfl, rfl⟩

/-- A car whose mass is set twice, with a misspelt path in between. -/
def exHistory : List (Path × ℚ) :=
  [("vehicle/chassis/mass".toList, 700), ("vehicle/chassis/masss".toList, 1), ("vehicle/chassis/mass".toList, 660),
   ("vehicle/rear-tire/Qx".toList, 19 / 10)]

example : ("vehicle/chassis/mass".toList, (660 : ℚ)) ∈ slots (run (freshCar fun _ => 0) exHistory) :=
  (C97_last_value _ _ _ (mem_documented (by simp [chassisPaths, tyrePaths, windPaths])) _).2 (by decide +kernel)

example : ("vehicle/rear-tire/Qx".toList, (19 / 10 : ℚ)) ∈ slots (run (freshCar fun _ => 0) exHistory) :=
  (C97_last_value _ _ _ (mem_documented (by simp [chassisPaths, tyrePaths, windPaths])) _).2 (by decide +kernel)

example : (run (freshCar fun _ => 0) exHistory).setParameter "vehicle/front-axle/engine/maximum-power".toList 1
    = .throw :=
  (C97_accepts _ _ _ _).2 (notMem_documented (by simp [chassisPaths, axlePaths, tyrePaths, powerPaths, windPaths]))

/-! ### C98: the car says whether it is ready -/

/-- The car reports ready exactly when every parameter of the chassis, of the axles and of the tyres has been
set. Missing: brakes, engine and boost, see `C98_false`. The property as users rely on it would be
`isReady = true ↔ ∀ q ∈ required, q ∈ h.map (·.1)`. -/
theorem C98_ready_partial [Field K] (init : Path → K) (h : List (Path × K)) :
    (run (freshCar init) h).isReady = true ↔
      ∀ q ∈ (chassisPaths ++ axlePaths ++ tyrePaths).map String.toList, q ∈ h.map (·.1) := by
  rw [freshCar_hist, run_hist, isReady_hist]
  simp only [Bool.false_or, decide_eq_true_eq]

/-- The car reports ready although the power of the engine has never been set. -/
theorem C98_false [Field K] (init : Path → K) :
    ∃ h : List (Path × K), (run (freshCar init) h).isReady = true ∧
      "vehicle/rear-axle/engine/maximum-power".toList ∈ required ∧
      "vehicle/rear-axle/engine/maximum-power".toList ∉ h.map (·.1) := by
  refine ⟨((chassisPaths ++ axlePaths ++ tyrePaths).map String.toList).map fun q => (q, 1), ?_, ?_, ?_⟩
  · rw [C98_ready_partial]
    intro q hq
    rw [List.map_map]
    exact List.mem_map.2 ⟨q, hq, rfl⟩
  · exact mem_required (by simp [powerPaths])
  · rw [List.map_map]
    have e : ((·.1) ∘ fun q : Path => (q, (1 : K))) = id := rfl
    rw [e, List.map_id, mem_toList]
    simp [chassisPaths, axlePaths, tyrePaths]

/-- A car with everything set is ready. -/
theorem C98_complete [Field K] (init : Path → K) (h : List (Path × K)) (hall : ∀ q ∈ required, q ∈ h.map (·.1)) :
    (run (freshCar init) h).isReady = true := by
  rw [C98_ready_partial]
  intro q hq
  refine hall q ?_
  rw [required, List.map_append]
  exact List.mem_append_left _ hq

example : (run (freshCar fun _ => (0 : ℚ)) (required.map fun q => (q, 2))).isReady = true :=
  C98_complete _ _ fun q hq => by
    rw [List.map_map]
    exact List.mem_map.2 ⟨q, hq, rfl⟩

example : (run (freshCar fun _ => 0) exHistory).isReady = false := by
  rw [← Bool.not_eq_true, C98_ready_partial]
  intro h
  exact absurd (h "vehicle/chassis/inertia/Ixx".toList (mem_toList.2 (by simp [chassisPaths]))) (by decide +kernel)

/-! ### C99: the geometry follows the parameters -/

/-- After any history the tyres stand half a track to each side and the axles where the parameters say. -/
theorem C99_geometry [Field K] (init : Path → K) (h : List (Path × K)) :
    let c := run (freshCar init) h
    let val := fun s : String => lastSet init h s.toList
    c.front.yLeft = -(1 / 2) * val "vehicle/front-axle/track" ∧
    c.front.yRight = 1 / 2 * val "vehicle/front-axle/track" ∧
    c.rear.yLeft = -(1 / 2) * val "vehicle/rear-axle/track" ∧
    c.rear.yRight = 1 / 2 * val "vehicle/rear-axle/track" ∧
    c.frontOrigin = (val "vehicle/chassis/front_axle/x", val "vehicle/chassis/front_axle/y",
      val "vehicle/chassis/front_axle/z") ∧
    c.rearOrigin = (val "vehicle/chassis/rear_axle/x", val "vehicle/chassis/rear_axle/y",
      val "vehicle/chassis/rear_axle/z") := by
  rw [freshCar_hist, run_hist]
  exact geometry_hist _ _ _ _

example : (run (freshCar fun _ => (0 : ℚ)) [("vehicle/front-axle/track".toList, 2)]).front.yLeft = -1 := by
  refine (C99_geometry _ _).1.trans ?_
  have : lastSet (fun _ => (0 : ℚ)) [("vehicle/front-axle/track".toList, 2)] "vehicle/front-axle/track".toList = 2 := by
    decide +kernel
  simp only [this]
  norm_num

/-! ### C100: writing a car to a document and reading it back -/

/-- A car written to a document and read back has the same parameters, the same geometry, and is ready. Missing:
the type of the tyres, which must be added to the document, and the wind, see `C100_false`. -/
theorem C100_round_trip_partial [Field K] (init : Path → K) (h : List (Path × K)) (type : Path → Res TyreType)
    (wind : K) (tf tr : TyreType) (hf : type "vehicle/front-tire/".toList = .ok tf)
    (hr : type "vehicle/rear-tire/".toList = .ok tr) :
    let c := run (freshCar init) h
    ∃ c', readCar c.fillXml type wind = .ok c' ∧
      (∀ q ∈ required, ∀ x, (q, x) ∈ slots c' ↔ (q, x) ∈ slots c) ∧
      c'.front.yLeft = c.front.yLeft ∧ c'.front.yRight = c.front.yRight ∧
      c'.rear.yLeft = c.rear.yLeft ∧ c'.rear.yRight = c.rear.yRight ∧
      c'.frontOrigin = c.frontOrigin ∧ c'.rearOrigin = c.rearOrigin ∧
      c'.isReady = true ∧ c'.fillXml = c.fillXml := by
  intro c
  let val := lastSet init h
  obtain ⟨u, hc⟩ : ∃ u, c = histCar .normal .normal val u :=
    ⟨_, by rw [show c = run (freshCar init) h from rfl, freshCar_hist, run_hist]⟩
  have hx : c.fillXml = xmlKeys.map fun q => (q, val q) := by rw [hc, fillXml_hist]
  have h1 : ∀ e ∈ c.fillXml, e.2 = val e.1 := by
    rw [hx]
    intro e he
    obtain ⟨q, _, rfl⟩ := List.mem_map.1 he
    rfl
  have h2 : c.fillXml.map (·.1) = xmlKeys := by
    rw [hx, List.map_map]
    exact List.map_id _
  have hread := readCar_of (d := c.fillXml) (val := val) (type := type) wind
    (fun q hq => lookup_of h1 hq) (fun q hq => by rw [h2]; exact hq)
    (fun e he => (xmlKeys_read _).2 (by rw [← h2]; exact List.mem_map.2 ⟨e, he, rfl⟩)) hf hr
  have hreq : ∀ q ∈ xmlKeys, (if q ∈ extraKeys then wind else val q) = val q := fun q hq =>
    if_neg fun h => xmlKeys_extra q h hq
  have hfill : (histCar tf tr (fun q => if q ∈ extraKeys then wind else val q) fun _ => true).fillXml = c.fillXml := by
    rw [fillXml_hist, hx]
    exact List.map_congr_left fun q hq => by rw [hreq q hq]
  have hs : ∀ s : String, s.toList ∈ required → (if s.toList ∈ extraKeys then wind else val s.toList) = val s.toList :=
    fun s hs => hreq _ ((xmlKeys_required _).2 hs)
  obtain ⟨g1, g2, g3, g4, g5, g6⟩ := geometry_hist (K := K) .normal .normal val u
  obtain ⟨k1, k2, k3, k4, k5, k6⟩ := geometry_hist tf tr (fun q => if q ∈ extraKeys then wind else val q) fun _ => true
  have t1 := hs "vehicle/front-axle/track" (mem_required (by simp [chassisPaths, axlePaths]))
  have t2 := hs "vehicle/rear-axle/track" (mem_required (by simp [chassisPaths, axlePaths]))
  refine ⟨_, hread, ?_, ?_, ?_, ?_, ?_, ?_, ?_, ?_, hfill⟩
  · intro q hq x
    rw [hc, mem_slots_hist, mem_slots_hist]
    simp only [hreq q ((xmlKeys_required q).2 hq)]
  · rw [hc]; exact k1.trans ((congrArg (-(1 / 2) * ·) t1).trans g1.symm)
  · rw [hc]; exact k2.trans ((congrArg (1 / 2 * ·) t1).trans g2.symm)
  · rw [hc]; exact k3.trans ((congrArg (-(1 / 2) * ·) t2).trans g3.symm)
  · rw [hc]; exact k4.trans ((congrArg (1 / 2 * ·) t2).trans g4.symm)
  · rw [hc]
    exact k5.trans ((congrArg₂ Prod.mk (hs "vehicle/chassis/front_axle/x" (mem_required (by simp [chassisPaths, axlePaths])))
      (congrArg₂ Prod.mk (hs "vehicle/chassis/front_axle/y" (mem_required (by simp [chassisPaths, axlePaths])))
        (hs "vehicle/chassis/front_axle/z" (mem_required (by simp [chassisPaths, axlePaths]))))).trans g5.symm)
  · rw [hc]
    exact k6.trans ((congrArg₂ Prod.mk (hs "vehicle/chassis/rear_axle/x" (mem_required (by simp [chassisPaths, axlePaths])))
      (congrArg₂ Prod.mk (hs "vehicle/chassis/rear_axle/y" (mem_required (by simp [chassisPaths, axlePaths])))
        (hs "vehicle/chassis/rear_axle/z" (mem_required (by simp [chassisPaths, axlePaths]))))).trans g6.symm)
  · rw [isReady_hist]
    exact fun _ _ => rfl

/-- The document does not hold the wind nor the type of the tyres: cars that differ in them write the same
document. -/
theorem C100_false :
    (∃ (h₁ h₂ : List (Path × ℚ)), slots (run (freshCar fun _ => 0) h₁) ≠ slots (run (freshCar fun _ => 0) h₂) ∧
      (run (freshCar fun _ => 0) h₁).fillXml = (run (freshCar fun _ => 0) h₂).fillXml) ∧
    ∃ (d : Document ℚ) (c₁ c₂ : Car ℚ),
      readCar d (fun _ => .ok .normal) 0 = .ok c₁ ∧ readCar d (fun _ => .ok .onlyLateral) 0 = .ok c₂ ∧
      c₁.front.left.type = .normal ∧ c₂.front.left.type = .onlyLateral ∧ c₁.fillXml = c₂.fillXml := by
  constructor
  · refine ⟨[], [("vehicle/chassis/aerodynamics/wind_velocity/eastward".toList, 5)], fun e => ?_, ?_⟩
    · have h1 : ("vehicle/chassis/aerodynamics/wind_velocity/eastward".toList, (5 : ℚ)) ∈ slots
          (run (freshCar fun _ => 0) [("vehicle/chassis/aerodynamics/wind_velocity/eastward".toList, (5 : ℚ))]) :=
        (C97_last_value _ _ _ (mem_documented (by simp [chassisPaths, tyrePaths, windPaths])) _).2 (by decide +kernel)
      rw [← e, C97_last_value _ _ _ (mem_documented (by simp [windPaths]))] at h1
      exact absurd h1 (by decide +kernel)
    · rw [freshCar_hist, run_hist, run_hist, fillXml_hist, fillXml_hist]
      refine List.map_congr_left fun q hq => ?_
      have : q ≠ "vehicle/chassis/aerodynamics/wind_velocity/eastward".toList := by
        rintro rfl
        exact xmlKeys_extra _ (by decide +kernel) hq
      simp only [lastSet, if_neg this]
  · have r := fun ty => readCar_of (d := (freshCar fun _ => (0 : ℚ)).fillXml) (val := fun _ => 0)
      (type := fun _ => .ok ty) (tf := ty) (tr := ty) 0
      (by
        rw [freshCar_hist, fillXml_hist]
        refine fun q hq => lookup_of (val := fun _ => 0) (fun e he => ?_) hq
        obtain ⟨q, _, rfl⟩ := List.mem_map.1 he
        rfl)
      (by
        rw [freshCar_hist, fillXml_hist, List.map_map]
        intro q hq
        exact List.mem_map.2 ⟨q, hq, rfl⟩)
      (by
        rw [freshCar_hist, fillXml_hist]
        intro e he
        obtain ⟨q, hq, rfl⟩ := List.mem_map.1 he
        exact (xmlKeys_read q).2 hq) rfl rfl
    refine ⟨_, _, _, r .normal, r .onlyLateral, rfl, rfl, ?_⟩
    rw [fillXml_hist, fillXml_hist]

/-! ### C102: which documents are accepted -/

/-- A car is constructed from a document exactly when the document holds every parameter and nothing else (and
the types of the tyres can be read); otherwise the constructor throws. Each parameter gets the value of its first
element. -/
theorem C102_accepts [Field K] (d : Document K) (type : Path → Res TyreType) (wind : K) (ht : ∀ p, type p ≠ .ub) :
    ((∀ q ∈ required, q ∈ d.map (·.1)) ∧ (∀ e ∈ d, e.1 ∈ required) ∧
        (∃ tf, type "vehicle/front-tire/".toList = .ok tf) ∧ (∃ tr, type "vehicle/rear-tire/".toList = .ok tr) →
      ∃ c, readCar d type wind = .ok c ∧ c.isReady = true ∧
        ∀ q ∈ required, ∀ x, (q, x) ∈ slots c ↔ (d.find? fun e => decide (e.1 = q)).map (·.2) = some x) ∧
    (¬((∀ q ∈ required, q ∈ d.map (·.1)) ∧ (∀ e ∈ d, e.1 ∈ required) ∧
        (∃ tf, type "vehicle/front-tire/".toList = .ok tf) ∧ (∃ tr, type "vehicle/rear-tire/".toList = .ok tr)) →
      readCar d type wind = .throw) := by
  constructor
  · rintro ⟨h1, h2, ⟨tf, hf⟩, tr, hr⟩
    let val : Path → K := fun q => (Document.lookup d q).getD 0
    have hv : ∀ q ∈ d.map (·.1), Document.lookup d q = some (val q) := by
      intro q hq
      obtain ⟨v, hv⟩ := lookup_some hq
      simp [val, hv]
    have hread := readCar_of (d := d) (val := val) (type := type) wind hv
      (fun q hq => h1 q ((xmlKeys_required q).1 hq))
      (fun e he => (xmlKeys_read _).2 ((xmlKeys_required _).2 (h2 e he))) hf hr
    refine ⟨_, hread, ?_, ?_⟩
    · rw [isReady_hist]; exact fun _ _ => rfl
    · intro q hq x
      rw [mem_slots_hist]
      have e1 : (d.find? fun e => decide (e.1 = q)).map (·.2) = Document.lookup d q := by
        unfold Document.lookup
        cases d.find? (fun e => decide (e.1 = q)) <;> rfl
      rw [e1, hv q (h1 q hq), if_neg fun h => extra_required q h hq]
      simp only [required_carKeys q hq, true_and, Option.some.injEq]
      exact eq_comm
  · intro hn
    cases hr : readCar d type wind with
    | ok c =>
      obtain ⟨h1, h2, h3, h4⟩ := readCar_inv hr
      exact absurd ⟨fun q hq => h1 q ((xmlKeys_required q).2 hq),
        fun e he => (xmlKeys_required _).1 ((xmlKeys_read _).1 (h2 e he)), h3, h4⟩ hn
    | throw => rfl
    | ub => exact absurd hr (readCar_not_ub ht)

example : ∃ c, readCar (required.map fun q => (q, (3 : ℚ))) (fun _ => .ok .normal) 0 = .ok c ∧ c.isReady = true :=
  have ⟨c, h1, h2, _⟩ := (C102_accepts (required.map fun q => (q, (3 : ℚ))) (fun _ => .ok .normal) 0
    (by simp)).1 ⟨fun q hq => by rw [List.map_map]; exact List.mem_map.2 ⟨q, hq, rfl⟩,
      fun e he => by obtain ⟨q, hq, rfl⟩ := List.mem_map.1 he; exact hq, ⟨_, rfl⟩, _, rfl⟩
  ⟨c, h1, h2⟩

example : readCar [("vehicle/chassis/mass".toList, (3 : ℚ))] (fun _ => .ok .normal) 0 = .throw :=
  (C102_accepts _ _ _ (by simp)).2 fun h =>
    absurd (h.1 "vehicle/chassis/com/x".toList (mem_required (by simp [chassisPaths]))) (by decide +kernel)

/-! ### C101: declared parameters -/

/-- After any program, evaluating a copy of the car gives each declared parameter its value at that arclength, and
leaves the parameters that are not declared alone. -/
theorem C101_evaluates [Field K] [LinearOrder K] [IsStrictOrderedRing K] (init : Path → K) (prog : List (Call K))
    (m : Vehicle K) (hm : m ∈ prog.foldl callOn (freshFour init)) (hd : ∀ q ∈ declaredPaths m, q ∈ documented)
    (t : K) :
    (m.evaluate t).2 = .done ∧
    (∀ d ∈ m.params, ∃ x, eval d t = .ok x ∧ ∀ y, (d.path.toList, y) ∈ slots (m.evaluate t).1.car ↔ y = x) ∧
    ∀ q ∈ documented, q ∉ declaredPaths m → ∀ y, (q, y) ∈ slots (m.evaluate t).1.car ↔ (q, y) ∈ slots m.car := by
  obtain ⟨_, _, ⟨ps, u, g, h⟩, _⟩ := agree_program prog init _ (agree_fresh init)
  obtain ⟨rfl, val', u', hc, _⟩ := h m hm
  obtain ⟨v2, u2, k1, k2, k3, _⟩ := apply_hist .normal .normal t m.params val' u'
    fun d hd => Parameter.C24_total d (g.wf d hd) t
  obtain ⟨k4, k5⟩ := k3 (fun q hq => (carKeys_documented q).2 (hd q hq)) g.nodup
  have ec : (m.evaluate t).1.car = histCar .normal .normal v2 u2 := by
    simp only [Vehicle.evaluate, hc, k1]
  refine ⟨by simp only [Vehicle.evaluate, hc, k4], fun d hd' => ⟨_, (k5 d hd').1, fun y => ?_⟩, fun q hq hn y => ?_⟩
  · rw [ec, mem_slots_hist]
    exact ⟨fun h => h.2, fun h => ⟨(carKeys_documented _).2 (hd _ (List.mem_map.2 ⟨d, hd', rfl⟩)), h⟩⟩
  · rw [ec, hc, mem_slots_hist, mem_slots_hist, (k2 q hn).1]

/-- A parameter declared under a path that does not exist is accepted, and then every evaluation throws. -/
theorem C101_unknown [Field K] [LinearOrder K] [IsStrictOrderedRing K] (init : Path → K) (prog : List (Call K))
    (m : Vehicle K) (hm : m ∈ prog.foldl callOn (freshFour init)) (hd : ∃ q ∈ declaredPaths m, q ∉ documented)
    (t : K) : (m.evaluate t).2 = .thrown := by
  obtain ⟨_, _, ⟨ps, u, g, h⟩, _⟩ := agree_program prog init _ (agree_fresh init)
  obtain ⟨rfl, val', u', hc, _⟩ := h m hm
  obtain ⟨v2, u2, _, _, _, k⟩ := apply_hist .normal .normal t m.params val' u'
    fun d hd => Parameter.C24_total d (g.wf d hd) t
  obtain ⟨q, h1, h2⟩ := hd
  simp only [Vehicle.evaluate, hc]
  exact k ⟨q, h1, fun h => h2 ((carKeys_documented q).1 h)⟩

/-- Setting a declared parameter overrides its declared values: afterwards every evaluation uses the value that
was set. -/
theorem C101_override [Field K] [LinearOrder K] [IsStrictOrderedRing K] (init : Path → K) (prog : List (Call K))
    (m m' : Vehicle K) (hm : m ∈ prog.foldl callOn (freshFour init)) (hd : ∀ q ∈ declaredPaths m, q ∈ documented)
    (p : Path) (x : K) (hs : m.setParameter p x = .ok m') (t : K) :
    (m'.evaluate t).2 = .done ∧ ∀ y, (p, y) ∈ slots (m'.evaluate t).1.car ↔ y = x := by
  obtain ⟨_, _, ⟨ps, u, g, h⟩, _⟩ := agree_program prog init _ (agree_fresh init)
  obtain ⟨rfl, val', u', hc, _⟩ := h m hm
  have hp : p ∈ carKeys := by
    by_contra hp
    rw [Vehicle.setParameter, hc, setHist_notMem _ _ _ _ x hp] at hs
    cases hs
  rw [Vehicle.setParameter, hc, setHist_mem _ _ _ _ x hp, Res.bind_ok, Res.ok.injEq] at hs
  subst hs
  obtain ⟨v2, u2, k1, k2, k3, _⟩ := apply_hist .normal .normal t (fillFirst x p m.params) (at_ val' p x) (at_ u' p true)
    fun d hd => Parameter.C24_total d (fillFirst_wf x p m.params g.wf d hd) t
  have hn := fillFirst_declared x p m.params
  obtain ⟨k4, k5⟩ := k3 (fun q hq => (carKeys_documented q).2 (hd q (by rw [hn] at hq; exact hq)))
    (by rw [hn]; exact g.nodup)
  refine ⟨k4, fun y => ?_⟩
  simp only [Vehicle.evaluate, k1]
  rw [mem_slots_hist]
  have hv : v2 p = x := by
    by_cases hpd : p ∈ declared (fillFirst x p m.params)
    · obtain ⟨d, hd1, rfl⟩ := List.mem_map.1 hpd
      exact eval_const (fillFirst_values x _ m.params g.nodup d hd1 rfl) (k5 d hd1).1
    · rw [(k2 p hpd).1, at_same]
  rw [hv]
  exact ⟨fun h => h.2, fun h => ⟨hp, h⟩⟩

/-- The engine power declared as a constant, then set. -/
def exProgram : List (Call ℚ) :=
  [.set "vehicle/chassis/mass".toList 660, .add (.constant "vehicle/rear-axle/engine/maximum-power" "power" 500),
   .evaluate 1 3]

theorem exProgram_declared : ∀ m ∈ exProgram.foldl callOn (freshFour fun _ => 0),
    m.params = [⟨"vehicle/rear-axle/engine/maximum-power", ["power"], [500], []⟩] := by
  obtain ⟨c, hc⟩ := (C97_accepts (fun _ => (0 : ℚ)) [] "vehicle/chassis/mass".toList 660).1
    (mem_documented (by simp [chassisPaths]))
  have hc' : (freshCar fun _ => (0 : ℚ)).setParameter "vehicle/chassis/mass".toList 660 = .ok c := hc
  intro m hm
  have e1 : callOn (freshFour fun _ => (0 : ℚ)) (.set "vehicle/chassis/mass".toList 660)
      = List.replicate 4 ⟨c, []⟩ := by
    refine (eachCopy_ok (g := fun _ => ⟨c, []⟩) fun m hm => ?_).trans ?_
    · obtain rfl := List.eq_of_mem_replicate hm
      simp only [Vehicle.setParameter, hc', Res.bind_ok, fillFirst]
    · simp [freshFour]
  have e2 : callOn (List.replicate 4 ⟨c, []⟩)
      (.add (.constant "vehicle/rear-axle/engine/maximum-power" "power" 500))
      = List.replicate 4 ⟨c, [⟨"vehicle/rear-axle/engine/maximum-power", ["power"], [500], []⟩]⟩ := by
    refine (eachCopy_ok (g := fun m => ⟨c, [⟨"vehicle/rear-axle/engine/maximum-power", ["power"], [500], []⟩]⟩)
      fun m hm => ?_).trans ?_
    · obtain rfl := List.eq_of_mem_replicate hm
      rfl
    · simp
  simp only [exProgram, List.foldl_cons, List.foldl_nil, e1, e2] at hm
  simp only [callOn] at hm
  obtain ⟨j, hj, rfl⟩ := List.getElem_of_mem hm
  rw [List.getElem_modify]
  split_ifs <;> simp only [Vehicle.evaluate, List.getElem_replicate]

example (m : Vehicle ℚ) (hm : m ∈ exProgram.foldl callOn (freshFour fun _ => 0)) (t : ℚ) :
    (m.evaluate t).2 = .done :=
  (C101_evaluates _ exProgram m hm (by
    rw [declaredPaths, exProgram_declared m hm]
    intro q hq
    obtain rfl := List.mem_singleton.1 hq
    exact mem_documented (by simp [powerPaths])) t).1

/-! ### C55: the four copies -/

/-- After any program of settings, declarations and evaluations of single copies, the four copies have the same
declared parameters, and hold at every path that is not declared the value that was last set. -/
theorem C55_copies_agree [Field K] [LinearOrder K] [IsStrictOrderedRing K] (init : Path → K)
    (prog : List (Call K)) :
    let ms := prog.foldl callOn (freshFour init)
    ms.length = 4 ∧
    (∀ m₁ ∈ ms, ∀ m₂ ∈ ms, m₁.params = m₂.params) ∧
    ∀ m ∈ ms, ∀ q ∈ documented, q ∉ declaredPaths m → ∀ x,
      (q, x) ∈ slots m.car ↔ x = lastSet init (settings prog) q := by
  obtain ⟨h0, val, ⟨ps, u, g, h⟩, hv⟩ := agree_program prog init _ (agree_fresh init)
  refine ⟨by rw [h0]; simp [freshFour], fun m₁ h₁ m₂ h₂ => (h m₁ h₁).1.trans (h m₂ h₂).1.symm, ?_⟩
  intro m hm q hq hn x
  obtain ⟨h1, val', u', hc, hv'⟩ := h m hm
  rw [hc, mem_slots_hist, (hv' q (by rw [← h1]; exact hn)).1, hv q ((carKeys_documented q).2 hq)]
  exact ⟨fun h => h.2, fun h => ⟨(carKeys_documented q).2 hq, h⟩⟩

/-- Any two copies evaluated at the same arclength end the same way, and when the evaluation succeeds they are then
equal in everything. -/
theorem C55_same_evaluation [Field K] [LinearOrder K] [IsStrictOrderedRing K] (init : Path → K)
    (prog : List (Call K)) (m₁ m₂ : Vehicle K) (h₁ : m₁ ∈ prog.foldl callOn (freshFour init))
    (h₂ : m₂ ∈ prog.foldl callOn (freshFour init)) (t : K) :
    (m₁.evaluate t).2 = (m₂.evaluate t).2 ∧
    ((m₁.evaluate t).2 = .done → (m₁.evaluate t).1 = (m₂.evaluate t).1) := by
  obtain ⟨_, val, ⟨ps, u, g, h⟩, _⟩ := agree_program prog init _ (agree_fresh init)
  obtain ⟨e₁, v₁, u₁, c₁, a₁⟩ := h m₁ h₁
  obtain ⟨e₂, v₂, u₂, c₂, a₂⟩ := h m₂ h₂
  have he : ∀ d ∈ ps, ∃ v, eval d t = .ok v := fun d hd => Parameter.C24_total d (g.wf d hd) t
  obtain ⟨w₁, x₁, p₁, q₁, r₁, s₁⟩ := apply_hist .normal .normal t ps v₁ u₁ he
  obtain ⟨w₂, x₂, p₂, q₂, r₂, s₂⟩ := apply_hist .normal .normal t ps v₂ u₂ he
  simp only [Vehicle.evaluate, e₁, e₂, c₁, c₂, p₁, p₂]
  by_cases hall : ∀ q ∈ declared ps, q ∈ carKeys
  · obtain ⟨d₁, f₁⟩ := r₁ hall g.nodup
    obtain ⟨d₂, f₂⟩ := r₂ hall g.nodup
    refine ⟨by rw [d₁, d₂], fun _ => ?_⟩
    congr 1
    refine histCar_congr _ _ fun q _ => ?_
    by_cases hq : q ∈ declared ps
    · obtain ⟨d, hd, rfl⟩ := List.mem_map.1 hq
      have := (f₁ d hd).1.symm.trans (f₂ d hd).1
      exact ⟨by simpa using this, by rw [(f₁ d hd).2, (f₂ d hd).2]⟩
    · rw [(q₁ q hq).1, (q₂ q hq).1, (q₁ q hq).2, (q₂ q hq).2, (a₁ q hq).1, (a₂ q hq).1, (a₁ q hq).2, (a₂ q hq).2]
      exact ⟨rfl, rfl⟩
  · push Not at hall
    have t₁ := s₁ hall
    have t₂ := s₂ hall
    refine ⟨by rw [t₁, t₂], fun hd => ?_⟩
    rw [t₁] at hd
    cases hd

example : ∀ m ∈ exProgram.foldl callOn (freshFour fun _ => 0), ("vehicle/chassis/mass".toList, (660 : ℚ)) ∈ slots m.car :=
  fun m hm => ((C55_copies_agree _ exProgram).2.2 m hm _ (mem_documented (by simp [chassisPaths]))
    (by rw [declaredPaths, exProgram_declared m hm]; decide +kernel) _).2 (by decide +kernel)

end Verif.Routing
