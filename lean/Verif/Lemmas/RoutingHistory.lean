import Verif.Lemmas.Routing
import Verif.Lemmas.Parameter
import Verif.Props.Parameter
import Mathlib.Tactic.Ring

set_option autoImplicit false

namespace Verif.Routing

open Parameter (Param Decl WellFormed eval)

variable {K : Type*}

/-- A function changed at one point. -/
def at_ {α : Type*} (f : Path → α) (p : Path) (x : α) : Path → α := fun q => if q = p then x else f q

theorem at_same {α : Type*} (f : Path → α) (p : Path) (x : α) : at_ f p x p = x := by simp [at_]

theorem at_ne {α : Type*} (f : Path → α) {p q : Path} (x : α) (h : q ≠ p) : at_ f p x q = f q := by simp [at_, h]

/-- A table by the values and flags of the paths. -/
def histTable (val : Path → K) (u : Path → Bool) (base : Path) (ns : List String) : Table K :=
  ns.map fun n => { name := n.toList, value := val (base ++ n.toList), used := u (base ++ n.toList) }

theorem updT_hist (val : Path → K) (u : Path → Bool) (base p : Path) (v : K) (ns : List String) :
    updT base p v (histTable val u base ns) = histTable (at_ val p v) (at_ u p true) base ns := by
  simp only [updT, histTable, List.map_map]
  refine List.map_congr_left fun n _ => ?_
  simp only [Function.comp, upd, at_]
  split_ifs <;> rfl

theorem updE_hist (val : Path → K) (p : Path) (v : K) (ns : List String) :
    (histTable val (fun _ => false) [] ns).map (updE p v) = histTable (at_ val p v) (fun _ => false) [] ns := by
  simp only [histTable, List.map_map]
  refine List.map_congr_left fun n _ => ?_
  simp only [Function.comp, updE, at_, List.nil_append]
  split_ifs <;> rfl

theorem named_hist (val : Path → K) (u : Path → Bool) (base : Path) (ns : List String) :
    Named (histTable val u base ns) ns := by
  simp [Named, histTable, Function.comp_def]

theorem member_hist [Zero K] (val : Path → K) (u : Path → Bool) (base : Path) :
    ∀ {ns : List String} {n : String}, n ∈ ns → member (histTable val u base ns) n.toList = val (base ++ n.toList)
  | [], _, h => by simp at h
  | m :: ns, n, h => by
    simp only [member, histTable, List.map_cons, List.find?_cons]
    by_cases e : m.toList = n.toList
    · simp [e]
    · have hn : n ∈ ns := by
        rcases List.mem_cons.1 h with rfl | h
        · exact absurd rfl e
        · exact h
      have := member_hist val u base hn
      simp only [e, decide_false]
      simpa only [member, histTable] using this

theorem allUsed_hist (val : Path → K) (u : Path → Bool) (base : Path) (ns : List String) :
    allUsed (histTable val u base ns) = true ↔ ∀ q ∈ under base ns, u q = true := by
  simp [allUsed, histTable, under]

/-- A tyre by the values and flags of the paths. -/
def histTyre (ty : TyreType) (val : Path → K) (u : Path → Bool) (path : Path) : Tyre K :=
  { path := path, type := ty, own := histTable val u path tyreOwnNames,
    model := histTable val u path tyreModelNames, base := histTable val u path tyreBaseNames }

/-- An axle by the values and flags of the paths. -/
def histAxle [Field K] (ty : TyreType) (val : Path → K) (u : Path → Bool) (pw : Bool) (path tp : Path) : Axle K :=
  Axle.placeTyres
    { path := path, powered := pw, own := histTable val u path (axleNames pw)
      brakes := histTable val u (path ++ "brakes/".toList) brakeNames
      engine := histTable val u (path ++ "engine/".toList) (engineNamesOf pw)
      boost := histTable val u (path ++ "boost/".toList) (engineNamesOf pw)
      yLeft := 0, yRight := 0, left := histTyre ty val u tp, right := histTyre ty val u tp }

/-- A car by the values and flags of the paths. -/
def histCar [Field K] (tf tr : TyreType) (val : Path → K) (u : Path → Bool) : Car K :=
  Car.placeAxles
    { own := histTable val u chassisPath chassisOwnNames
      base := histTable val u chassisPath chassisBaseNames
      extra := histTable val (fun _ => false) [] extraNames
      front := histAxle tf val u false "vehicle/front-axle/".toList "vehicle/front-tire/".toList
      rear := histAxle tr val u true "vehicle/rear-axle/".toList "vehicle/rear-tire/".toList
      frontOrigin := (0, 0, 0), rearOrigin := (0, 0, 0) }

theorem freshCar_hist [Field K] (init : Path → K) :
    freshCar init = histCar .normal .normal init fun _ => false := rfl

theorem updTyre_hist (ty : TyreType) (val : Path → K) (u : Path → Bool) (path p : Path) (v : K) :
    updTyre p v (histTyre ty val u path) = histTyre ty (at_ val p v) (at_ u p true) path := by
  simp only [updTyre, histTyre, updT_hist]

theorem updAxle_hist [Field K] (ty : TyreType) (val : Path → K) (u : Path → Bool) (pw : Bool) (path tp p : Path)
    (v : K) : updAxle p v (histAxle ty val u pw path tp) = histAxle ty (at_ val p v) (at_ u p true) pw path tp := by
  simp only [updAxle, histAxle, Axle.placeTyres, updT_hist, updTyre_hist]

theorem updCar_hist [Field K] (tf tr : TyreType) (val : Path → K) (u : Path → Bool) (p : Path) (v : K) :
    updCar p v (histCar tf tr val u) = histCar tf tr (at_ val p v) (at_ u p true) := by
  simp only [updCar, histCar, Car.placeAxles, updT_hist, updE_hist, updAxle_hist]

theorem wf_histTyre (ty : TyreType) (val : Path → K) (u : Path → Bool) (path : Path) :
    WfTyre (histTyre ty val u path) path :=
  ⟨rfl, named_hist _ _ _ _, named_hist _ _ _ _, named_hist _ _ _ _⟩

theorem wf_histAxle [Field K] (ty : TyreType) (val : Path → K) (u : Path → Bool) (pw : Bool) (path tp : Path) :
    WfAxle (histAxle ty val u pw path tp) pw path tp :=
  ⟨rfl, rfl, named_hist _ _ _ _, named_hist _ _ _ _, named_hist _ _ _ _, named_hist _ _ _ _,
    wf_histTyre _ _ _ _, wf_histTyre _ _ _ _, rfl, rfl⟩

theorem wf_histCar [Field K] (tf tr : TyreType) (val : Path → K) (u : Path → Bool) :
    WfCar (histCar tf tr val u) :=
  ⟨named_hist _ _ _ _, named_hist _ _ _ _, named_hist val (fun _ => false) [] extraNames,
    wf_histAxle _ _ _ _ _ _, wf_histAxle _ _ _ _ _ _,
    rfl, rfl⟩

theorem hist_congr {val val' : Path → K} {u u' : Path → Bool} {base : Path} {ns : List String}
    (h : ∀ q ∈ under base ns, val q = val' q ∧ u q = u' q) : histTable val u base ns = histTable val' u' base ns := by
  refine List.map_congr_left fun n hn => ?_
  have := h (base ++ n.toList) (List.mem_map.2 ⟨n, hn, rfl⟩)
  rw [this.1, this.2]

/-- A car depends only on the values and flags of its own paths. -/
theorem histCar_congr [Field K] (tf tr : TyreType) {val val' : Path → K} {u u' : Path → Bool}
    (h : ∀ q ∈ carKeys, val q = val' q ∧ u q = u' q) : histCar tf tr val u = histCar tf tr val' u' := by
  have hk : ∀ {l : List Path}, (∀ q ∈ l, q ∈ carKeys) → ∀ q ∈ l, val q = val' q ∧ u q = u' q :=
    fun hl q hq => h q (hl q hq)
  have e0 : histTable val (fun _ => false) [] extraNames = histTable val' (fun _ => false) [] extraNames :=
    hist_congr fun q hq => ⟨(h q (by
      have : q ∈ extraKeys := by simpa [under, extraKeys] using hq
      simp [carKeys, this])).1, rfl⟩
  have f : ∀ tp, (∀ q ∈ tyreKeys tp, q ∈ carKeys) → ∀ ty, histTyre ty val u tp = histTyre ty val' u' tp := by
    intro tp hl ty
    simp only [tyreKeys, mem_under_append] at hl
    rw [histTyre, histTyre, hist_congr (hk fun q hq => hl q (.inl (.inl hq))),
      hist_congr (hk fun q hq => hl q (.inl (.inr hq))), hist_congr (hk fun q hq => hl q (.inr hq))]
  have g : ∀ pw path tp, (∀ q ∈ axleKeys pw path tp, q ∈ carKeys) → ∀ ty,
      histAxle ty val u pw path tp = histAxle ty val' u' pw path tp := by
    intro pw path tp hl ty
    simp only [axleKeys, axleOnly, List.mem_append] at hl
    rw [histAxle, histAxle, f tp (fun q hq => hl q (.inr hq)), hist_congr (hk fun q hq => hl q (.inl (.inl (.inl (.inl hq))))),
      hist_congr (hk fun q hq => hl q (.inl (.inl (.inl (.inr hq))))),
      hist_congr (hk fun q hq => hl q (.inl (.inl (.inr hq)))), hist_congr (hk fun q hq => hl q (.inl (.inr hq)))]
  rw [histCar, histCar, e0, g _ _ _ (fun q hq => List.mem_append_left _ (List.mem_append_right _ hq)),
    g _ _ _ (fun q hq => List.mem_append_right _ hq),
    hist_congr (hk fun q hq => by simp [carKeys, hq]), hist_congr (hk fun q hq => by simp [carKeys, hq])]

theorem setHist_mem [Field K] (tf tr : TyreType) (val : Path → K) (u : Path → Bool) {p : Path} (v : K)
    (hp : p ∈ carKeys) :
    (histCar tf tr val u).setParameter p v = .ok (histCar tf tr (at_ val p v) (at_ u p true)) := by
  rw [setCar_mem (wf_histCar _ _ _ _) v hp, updCar_hist]

theorem setHist_notMem [Field K] (tf tr : TyreType) (val : Path → K) (u : Path → Bool) {p : Path} (v : K)
    (hp : p ∉ carKeys) : (histCar tf tr val u).setParameter p v = .throw :=
  setCar_notMem (wf_histCar _ _ _ _) v hp

/-- After any history the car is given by the last values and by what has been set. -/
theorem run_hist [Field K] (tf tr : TyreType) : ∀ (h : List (Path × K)) (val : Path → K) (u : Path → Bool),
    run (histCar tf tr val u) h =
      histCar tf tr (Spec.lastSet val h) (fun q => u q || decide (q ∈ h.map (·.1)))
  | [], val, u => by simp [run, Spec.lastSet]
  | (p, v) :: h, val, u => by
    have e : run (histCar tf tr val u) ((p, v) :: h) = run (histCar tf tr (at_ val p v) (at_ u p true)) h := by
      rw [run]
      by_cases hp : p ∈ carKeys
      · rw [setHist_mem tf tr val u v hp]
      · rw [setHist_notMem tf tr val u v hp]
        refine congrArg (run · h) (histCar_congr tf tr fun q hq => ?_)
        have : q ≠ p := fun e => hp (e ▸ hq)
        simp [at_, this]
    rw [e, run_hist]
    refine histCar_congr tf tr fun q _ => ⟨rfl, ?_⟩
    by_cases hq : q = p
    · simp [at_, hq]
    · simp only [at_, hq, if_false, List.map_cons, List.mem_cons, false_or]

theorem mem_slotsOf_hist {val : Path → K} {u : Path → Bool} {base : Path} {ns : List String} {q : Path} {x : K} :
    (q, x) ∈ Spec.slotsOf base (histTable val u base ns) ↔ q ∈ under base ns ∧ x = val q := by
  simp only [Spec.slotsOf, histTable, List.map_map, List.mem_map, Function.comp, Prod.mk.injEq, under]
  constructor
  · rintro ⟨n, hn, rfl, rfl⟩; exact ⟨⟨n, hn, rfl⟩, rfl⟩
  · rintro ⟨⟨n, hn, rfl⟩, rfl⟩; exact ⟨n, hn, rfl, rfl⟩

theorem mem_tyreSlots_hist {ty : TyreType} {val : Path → K} {u : Path → Bool} {tp q : Path} {x : K} :
    (q, x) ∈ Spec.tyreSlots (histTyre ty val u tp) ↔ q ∈ tyreKeys tp ∧ x = val q := by
  simp only [Spec.tyreSlots, histTyre, List.mem_append, mem_slotsOf_hist, tyreKeys, mem_under_append, ← or_and_right]

theorem mem_axleSlots_hist [Field K] {ty : TyreType} {val : Path → K} {u : Path → Bool} {pw : Bool}
    {path tp q : Path} {x : K} :
    (q, x) ∈ Spec.axleSlots (histAxle ty val u pw path tp) ↔ q ∈ axleKeys pw path tp ∧ x = val q := by
  simp only [Spec.axleSlots, histAxle, Axle.placeTyres, List.mem_append, mem_slotsOf_hist, mem_tyreSlots_hist,
    axleKeys, axleOnly, ← or_and_right, or_assoc, or_self]

/-- What is stored in a car. -/
theorem mem_slots_hist [Field K] {tf tr : TyreType} {val : Path → K} {u : Path → Bool} {q : Path} {x : K} :
    (q, x) ∈ Spec.slots (histCar tf tr val u) ↔ q ∈ carKeys ∧ x = val q := by
  have he : q ∈ under [] extraNames ↔ q ∈ extraKeys := by simp [under, extraKeys]
  simp only [Spec.slots, histCar, Car.placeAxles, List.mem_append, mem_slotsOf_hist, mem_axleSlots_hist, he,
    carKeys, frontKeys, rearKeys, ← or_and_right]

/-- The paths of the numbers stored in a car, in order. -/
def slotKeys : List Path :=
  let tyre := fun tp => under tp tyreOwnNames ++ under tp tyreModelNames ++ under tp tyreBaseNames
  let axle := fun pw path tp => under path (axleNames pw) ++ under (path ++ "brakes/".toList) brakeNames
    ++ under (path ++ "engine/".toList) (engineNamesOf pw) ++ under (path ++ "boost/".toList) (engineNamesOf pw)
    ++ tyre tp ++ tyre tp
  under chassisPath chassisOwnNames ++ under chassisPath chassisBaseNames ++ under [] extraNames
    ++ axle false "vehicle/front-axle/".toList "vehicle/front-tire/".toList
    ++ axle true "vehicle/rear-axle/".toList "vehicle/rear-tire/".toList

theorem slotsOf_hist (val : Path → K) (u : Path → Bool) (base : Path) (ns : List String) :
    Spec.slotsOf base (histTable val u base ns) = (under base ns).map fun q => (q, val q) := by
  simp [Spec.slotsOf, histTable, under, Function.comp_def]

theorem slots_hist [Field K] (tf tr : TyreType) (val : Path → K) (u : Path → Bool) :
    Spec.slots (histCar tf tr val u) = slotKeys.map fun q => (q, val q) := by
  simp only [Spec.slots, histCar, Car.placeAxles, Spec.axleSlots, histAxle, Axle.placeTyres, Spec.tyreSlots, histTyre,
    slotsOf_hist, slotKeys, List.map_append]

theorem isReady_hist [Field K] (tf tr : TyreType) (val : Path → K) (u : Path → Bool) :
    (histCar tf tr val u).isReady = true ↔
      ∀ q ∈ (Spec.chassisPaths ++ Spec.axlePaths ++ Spec.tyrePaths).map String.toList, u q = true := by
  let l : List Path := tyreKeys "vehicle/front-tire/".toList ++ under "vehicle/front-axle/".toList (axleNames false)
    ++ tyreKeys "vehicle/rear-tire/".toList ++ under "vehicle/rear-axle/".toList (axleNames true)
    ++ under chassisPath chassisBaseNames ++ under chassisPath chassisOwnNames
  have h1 : ∀ q ∈ l, q ∈ (Spec.chassisPaths ++ Spec.axlePaths ++ Spec.tyrePaths).map String.toList := by
    decide +kernel
  have h2 : ∀ q ∈ (Spec.chassisPaths ++ Spec.axlePaths ++ Spec.tyrePaths).map String.toList, q ∈ l := by
    decide +kernel
  have e : (histCar tf tr val u).isReady = true ↔ ∀ q ∈ l, u q = true := by
    simp only [histCar, Car.placeAxles, Car.isReady, histAxle, Axle.placeTyres, Axle.isReady, histTyre, Tyre.isReady,
      Bool.and_eq_true, allUsed_hist, l, tyreKeys, List.mem_append, mem_under_append]
    constructor
    · rintro h q hq
      rcases hq with ((((((hq | hq) | hq) | hq) | ((hq | hq) | hq)) | hq) | hq) | hq
      · exact h.1.1.1.1.1.1.2 q hq
      · exact h.1.1.1.1.1.2 q hq
      · exact h.1.1.1.1.1.1.1 q hq
      · exact h.1.1.1.2 q hq
      · exact h.1.1.2.1.1.1.2 q hq
      · exact h.1.1.2.1.1.2 q hq
      · exact h.1.1.2.1.1.1.1 q hq
      · exact h.1.1.2.2 q hq
      · exact h.1.2 q hq
      · exact h.2 q hq
    · intro h
      have co := fun q hq => h q (.inr hq)
      have cb := fun q hq => h q (.inl (.inr hq))
      have x2 := fun q hq => h q (.inl (.inl (.inr hq)))
      have b2 := fun q hq => h q (.inl (.inl (.inl (.inr (.inr hq)))))
      have m2 := fun q hq => h q (.inl (.inl (.inl (.inr (.inl (.inr hq))))))
      have o2 := fun q hq => h q (.inl (.inl (.inl (.inr (.inl (.inl hq))))))
      have x1 := fun q hq => h q (.inl (.inl (.inl (.inl (.inr hq)))))
      have b1 := fun q hq => h q (.inl (.inl (.inl (.inl (.inl (.inr hq))))))
      have m1 := fun q hq => h q (.inl (.inl (.inl (.inl (.inl (.inl (.inr hq)))))))
      have o1 := fun q hq => h q (.inl (.inl (.inl (.inl (.inl (.inl (.inl hq)))))))
      exact ⟨⟨⟨⟨⟨⟨⟨b1, o1⟩, m1⟩, ⟨⟨b1, o1⟩, m1⟩⟩, x1⟩, ⟨⟨⟨⟨b2, o2⟩, m2⟩, ⟨⟨b2, o2⟩, m2⟩⟩, x2⟩⟩, cb⟩, co⟩
  rw [e]
  exact ⟨fun h q hq => h q (h2 q hq), fun h q hq => h q (h1 q hq)⟩

/-- Where the tyres and the axles of a car stand. -/
theorem geometry_hist [Field K] (tf tr : TyreType) (f : Path → K) (u : Path → Bool) :
    let c := histCar tf tr f u
    let val := fun s : String => f s.toList
    c.front.yLeft = -(1 / 2) * val "vehicle/front-axle/track" ∧
    c.front.yRight = 1 / 2 * val "vehicle/front-axle/track" ∧
    c.rear.yLeft = -(1 / 2) * val "vehicle/rear-axle/track" ∧
    c.rear.yRight = 1 / 2 * val "vehicle/rear-axle/track" ∧
    c.frontOrigin = (val "vehicle/chassis/front_axle/x", val "vehicle/chassis/front_axle/y",
      val "vehicle/chassis/front_axle/z") ∧
    c.rearOrigin = (val "vehicle/chassis/rear_axle/x", val "vehicle/chassis/rear_axle/y",
      val "vehicle/chassis/rear_axle/z") := by
  intro c val
  have m : ∀ (base n s : String) (ns : List String), n ∈ ns → base.toList ++ n.toList = s.toList →
      member (histTable f u base.toList ns) n.toList = val s := by
    intro base n s ns hn e
    rw [member_hist f u _ hn, e]
  have tF := m "vehicle/front-axle/" "track" "vehicle/front-axle/track" (axleNames false) (by decide +kernel)
    (by decide +kernel)
  have tR := m "vehicle/rear-axle/" "track" "vehicle/rear-axle/track" (axleNames true) (by decide +kernel)
    (by decide +kernel)
  have fx := m "vehicle/chassis/" "front_axle/x" "vehicle/chassis/front_axle/x" chassisOwnNames (by decide +kernel)
    (by decide +kernel)
  have fy := m "vehicle/chassis/" "front_axle/y" "vehicle/chassis/front_axle/y" chassisOwnNames (by decide +kernel)
    (by decide +kernel)
  have fz := m "vehicle/chassis/" "front_axle/z" "vehicle/chassis/front_axle/z" chassisOwnNames (by decide +kernel)
    (by decide +kernel)
  have rx := m "vehicle/chassis/" "rear_axle/x" "vehicle/chassis/rear_axle/x" chassisOwnNames (by decide +kernel)
    (by decide +kernel)
  have ry := m "vehicle/chassis/" "rear_axle/y" "vehicle/chassis/rear_axle/y" chassisOwnNames (by decide +kernel)
    (by decide +kernel)
  have rz := m "vehicle/chassis/" "rear_axle/z" "vehicle/chassis/rear_axle/z" chassisOwnNames (by decide +kernel)
    (by decide +kernel)
  have w := wf_histCar tf tr f u
  refine ⟨w.front.yLeft.trans (congrArg (-(1 / 2) * ·) tF), w.front.yRight.trans (congrArg (1 / 2 * ·) tF),
    w.rear.yLeft.trans (congrArg (-(1 / 2) * ·) tR), w.rear.yRight.trans (congrArg (1 / 2 * ·) tR),
    w.frontOrigin.trans ?_, w.rearOrigin.trans ?_⟩
  · exact congrArg₂ Prod.mk fx (congrArg₂ Prod.mk fy fz)
  · exact congrArg₂ Prod.mk rx (congrArg₂ Prod.mk ry rz)

/-! ### Documents -/

theorem lookup_of {d : Document K} {val : Path → K} (h : ∀ e ∈ d, e.2 = val e.1) {p : Path}
    (hp : p ∈ d.map (·.1)) : Document.lookup d p = some (val p) := by
  unfold Document.lookup
  cases hf : d.find? (fun e => decide (e.1 = p)) with
  | none =>
    rw [List.find?_eq_none] at hf
    obtain ⟨e, he, rfl⟩ := List.mem_map.1 hp
    exact absurd (hf e he) (by simp)
  | some e =>
    have h1 := List.mem_of_find?_eq_some hf
    have h2 := List.find?_some hf
    have h3 : e.1 = p := by simpa using h2
    simp [h e h1, h3]

theorem lookup_none {d : Document K} {p : Path} (hp : p ∉ d.map (·.1)) : Document.lookup d p = none := by
  unfold Document.lookup
  have : d.find? (fun e => decide (e.1 = p)) = none := by
    rw [List.find?_eq_none]
    intro e he h
    exact hp (List.mem_map.2 ⟨e, he, by simpa using h⟩)
  rw [this]

theorem lookup_some {d : Document K} {p : Path} (hp : p ∈ d.map (·.1)) : ∃ v, Document.lookup d p = some v := by
  unfold Document.lookup
  cases hf : d.find? (fun e => decide (e.1 = p)) with
  | none =>
    rw [List.find?_eq_none] at hf
    obtain ⟨e, he, rfl⟩ := List.mem_map.1 hp
    exact absurd (hf e he) (by simp)
  | some e => exact ⟨e.2, rfl⟩

theorem readTable_inv {d : Document K} {base : Path} : ∀ {ns : List String} {t : Table K},
    readTable d base ns = .ok t → ∀ q ∈ under base ns, q ∈ d.map (·.1)
  | [], _, _ => by simp [under]
  | n :: ns, t, h => by
    intro q hq
    rw [readTable] at h
    simp only [under, List.map_cons, List.mem_cons] at hq
    by_contra hn
    rcases hq with rfl | hq
    · rw [lookup_none hn] at h; cases h
    · cases hl : Document.lookup d (base ++ n.toList) with
      | none => rw [hl] at h; cases h
      | some v =>
        rw [hl] at h
        obtain ⟨t', h', _⟩ := Res.bind_eq_ok.1 h
        exact hn (readTable_inv h' q hq)

theorem readTable_cases (d : Document K) (base : Path) : ∀ ns : List String,
    (∃ t, readTable d base ns = .ok t) ∨ readTable d base ns = .throw
  | [] => .inl ⟨_, rfl⟩
  | n :: ns => by
    rw [readTable]
    cases hl : Document.lookup d (base ++ n.toList) with
    | none => exact .inr rfl
    | some v =>
      rcases readTable_cases d base ns with ⟨t, h⟩ | h <;> simp only [h]
      · exact .inl ⟨_, rfl⟩
      · exact .inr rfl

theorem readTable_of {d : Document K} {val : Path → K}
    (h : ∀ q ∈ d.map (·.1), Document.lookup d q = some (val q)) (base : Path) :
    ∀ {ns : List String}, (∀ q ∈ under base ns, q ∈ d.map (·.1)) →
      readTable d base ns = .ok (histTable val (fun _ => true) base ns)
  | [], _ => rfl
  | n :: ns, hn => by
    have h1 := h _ (hn (base ++ n.toList) (by simp [under]))
    have h2 := readTable_of h base (ns := ns) fun q hq => hn q (by
      simp only [under, List.map_cons, List.mem_cons] at hq ⊢; exact .inr hq)
    rw [readTable, h1]
    simp only [h2, Res.bind_ok]
    rfl

theorem writeTable_hist (val : Path → K) (u : Path → Bool) (base : Path) (ns : List String) :
    writeTable base (histTable val u base ns) = (under base ns).map fun q => (q, val q) := by
  simp [writeTable, histTable, under, Function.comp_def]

/-- The paths a document of the car lists, in order. -/
def xmlKeys : List Path :=
  under chassisPath chassisBaseNames
    ++ ((under "vehicle/front-tire/".toList tyreBaseNames ++ under "vehicle/front-tire/".toList tyreOwnNames
          ++ under "vehicle/front-tire/".toList tyreModelNames)
        ++ under ("vehicle/front-axle/".toList ++ "brakes/".toList) brakeNames ++ []
        ++ under "vehicle/front-axle/".toList (axleNames false))
    ++ ((under "vehicle/rear-tire/".toList tyreBaseNames ++ under "vehicle/rear-tire/".toList tyreOwnNames
          ++ under "vehicle/rear-tire/".toList tyreModelNames)
        ++ under ("vehicle/rear-axle/".toList ++ "brakes/".toList) brakeNames
        ++ (under ("vehicle/rear-axle/".toList ++ "engine/".toList) engineNames
          ++ under ("vehicle/rear-axle/".toList ++ "boost/".toList) engineNames)
        ++ under "vehicle/rear-axle/".toList (axleNames true))
    ++ under chassisPath chassisOwnNames

theorem fillXml_hist [Field K] (tf tr : TyreType) (val : Path → K) (u : Path → Bool) :
    (histCar tf tr val u).fillXml = xmlKeys.map fun q => (q, val q) := by
  simp only [Car.fillXml, histCar, Car.placeAxles, Axle.fillXml, histAxle, Axle.placeTyres, Tyre.fillXml, histTyre,
    writeTable_hist, xmlKeys, List.map_append, engineNamesOf, if_true, Bool.false_eq_true, if_false, List.map_nil]

theorem xmlKeys_read (q : Path) : readPaths.contains q = true ↔ q ∈ xmlKeys := by
  have e1 : "vehicle/front-axle/".toList ++ "brakes/".toList = "vehicle/front-axle/brakes/".toList := by
    decide +kernel
  have e2 : "vehicle/rear-axle/".toList ++ "brakes/".toList = "vehicle/rear-axle/brakes/".toList := by
    decide +kernel
  have e3 : "vehicle/rear-axle/".toList ++ "engine/".toList = "vehicle/rear-axle/engine/".toList := by
    decide +kernel
  have e4 : "vehicle/rear-axle/".toList ++ "boost/".toList = "vehicle/rear-axle/boost/".toList := by
    decide +kernel
  rw [List.contains_iff_mem]
  change (q ∈ under chassisPath (chassisOwnNames ++ chassisBaseNames)
    ++ under "vehicle/front-axle/".toList (axleNames false) ++ under "vehicle/front-axle/brakes/".toList brakeNames
    ++ under "vehicle/rear-axle/".toList (axleNames true) ++ under "vehicle/rear-axle/brakes/".toList brakeNames
    ++ under "vehicle/rear-axle/engine/".toList engineNames ++ under "vehicle/rear-axle/boost/".toList engineNames
    ++ under "vehicle/front-tire/".toList (tyreBaseNames ++ tyreOwnNames ++ tyreModelNames)
    ++ under "vehicle/rear-tire/".toList (tyreBaseNames ++ tyreOwnNames ++ tyreModelNames)) ↔ _
  rw [xmlKeys, e1, e2, e3, e4]
  simp only [List.mem_append, mem_under_append, List.not_mem_nil, or_false]
  generalize (q ∈ under chassisPath chassisOwnNames) = a1
  generalize (q ∈ under chassisPath chassisBaseNames) = a2
  generalize (q ∈ under "vehicle/front-axle/".toList (axleNames false)) = a3
  generalize (q ∈ under "vehicle/rear-axle/".toList (axleNames true)) = a4
  generalize (q ∈ under "vehicle/front-axle/brakes/".toList brakeNames) = a5
  generalize (q ∈ under "vehicle/rear-axle/brakes/".toList brakeNames) = a6
  generalize (q ∈ under "vehicle/rear-axle/engine/".toList engineNames) = a7
  generalize (q ∈ under "vehicle/rear-axle/boost/".toList engineNames) = a8
  generalize (q ∈ under "vehicle/front-tire/".toList tyreBaseNames) = b1
  generalize (q ∈ under "vehicle/front-tire/".toList tyreOwnNames) = b2
  generalize (q ∈ under "vehicle/front-tire/".toList tyreModelNames) = b3
  generalize (q ∈ under "vehicle/rear-tire/".toList tyreBaseNames) = b4
  generalize (q ∈ under "vehicle/rear-tire/".toList tyreOwnNames) = b5
  generalize (q ∈ under "vehicle/rear-tire/".toList tyreModelNames) = b6
  constructor
  · rintro ((((((((((h | h) | h) | h) | h) | h) | h) | h) | ((h | h) | h)) | ((h | h) | h))) <;> simp only [h, true_or, or_true]
  · rintro ((((h | (((h | h) | h) | h) | h) | ((((h | h) | h) | h) | (h | h)) | h) | h)) <;> simp only [h, true_or, or_true]

theorem xmlKeys_carKeys (q : Path) : q ∈ carKeys ↔ q ∈ xmlKeys ∨ q ∈ extraKeys := by
  simp only [carKeys, frontKeys, rearKeys, axleKeys, axleOnly, tyreKeys, xmlKeys, List.mem_append, mem_under_append,
    engineNamesOf, List.not_mem_nil, or_false]
  have n : ∀ base, q ∉ under base [] := by simp [under]
  simp only [n, or_false]
  generalize (q ∈ under chassisPath chassisOwnNames) = a1
  generalize (q ∈ under chassisPath chassisBaseNames) = a2
  generalize (q ∈ under "vehicle/front-axle/".toList (axleNames false)) = a3
  generalize (q ∈ under "vehicle/rear-axle/".toList (axleNames true)) = a4
  generalize (q ∈ under ("vehicle/front-axle/".toList ++ "brakes/".toList) brakeNames) = a5
  generalize (q ∈ under ("vehicle/rear-axle/".toList ++ "brakes/".toList) brakeNames) = a6
  generalize (q ∈ under ("vehicle/rear-axle/".toList ++ "engine/".toList) engineNames) = a7
  generalize (q ∈ under ("vehicle/rear-axle/".toList ++ "boost/".toList) engineNames) = a8
  generalize (q ∈ under "vehicle/front-tire/".toList tyreBaseNames) = b1
  generalize (q ∈ under "vehicle/front-tire/".toList tyreOwnNames) = b2
  generalize (q ∈ under "vehicle/front-tire/".toList tyreModelNames) = b3
  generalize (q ∈ under "vehicle/rear-tire/".toList tyreBaseNames) = b4
  generalize (q ∈ under "vehicle/rear-tire/".toList tyreOwnNames) = b5
  generalize (q ∈ under "vehicle/rear-tire/".toList tyreModelNames) = b6
  generalize (q ∈ extraKeys) = c1
  constructor
  · rintro ((((h | h) | h) | ((h | h) | ((h | h) | h))) | ((((h | h) | h) | h) | ((h | h) | h))) <;> simp only [h, true_or, or_true]
  · rintro ((((h | (((h | h) | h) | h) | h) | ((((h | h) | h) | h) | (h | h)) | h) | h) | h) <;> simp only [h, true_or, or_true]

theorem xmlKeys_extra : ∀ q ∈ extraKeys, q ∉ xmlKeys := by decide +kernel

theorem extra_required : ∀ q ∈ extraKeys, q ∉ Spec.required := by decide +kernel

theorem documented_split (q : Path) : q ∈ Spec.documented ↔ q ∈ Spec.required ∨ q ∈ extraKeys := by
  have e : Spec.windPaths.map String.toList = extraKeys := rfl
  rw [Spec.documented, List.map_append, List.mem_append, e]
  rfl

theorem carKeys_split (q : Path) (h : q ∈ carKeys) : q ∈ Spec.required ∨ q ∈ extraKeys :=
  (documented_split q).1 ((carKeys_documented q).1 h)

theorem required_carKeys (q : Path) (h : q ∈ Spec.required) : q ∈ carKeys :=
  (carKeys_documented q).2 ((documented_split q).2 (.inl h))

theorem xmlKeys_required (q : Path) : q ∈ xmlKeys ↔ q ∈ Spec.required := by
  constructor
  · intro h
    rcases carKeys_split q ((xmlKeys_carKeys q).2 (.inl h)) with h' | h'
    · exact h'
    · exact absurd h (xmlKeys_extra q h')
  · intro h
    rcases (xmlKeys_carKeys q).1 (required_carKeys q h) with h' | h'
    · exact h'
    · exact absurd h (extra_required q h')

/-- Reading a document that gives every parameter its value. -/
theorem readCar_of [Field K] {d : Document K} {val : Path → K} {type : Path → Res TyreType} {tf tr : TyreType}
    (wind : K) (h : ∀ q ∈ d.map (·.1), Document.lookup d q = some (val q)) (hk : ∀ q ∈ xmlKeys, q ∈ d.map (·.1))
    (ha : ∀ e ∈ d, readPaths.contains e.1 = true)
    (hf : type "vehicle/front-tire/".toList = .ok tf) (hr : type "vehicle/rear-tire/".toList = .ok tr) :
    readCar d type wind = .ok (histCar tf tr (fun q => if q ∈ extraKeys then wind else val q) fun _ => true) := by
  let val' : Path → K := fun q => if q ∈ extraKeys then wind else val q
  have he : ∀ q ∈ d.map (·.1), q ∉ extraKeys := by
    intro q hq
    obtain ⟨e, he', rfl⟩ := List.mem_map.1 hq
    have h1 : ∀ q ∈ extraKeys, q ∉ readPaths := by decide +kernel
    exact fun h => h1 e.1 h (List.contains_iff_mem.1 (ha e he'))
  have h' : ∀ q ∈ d.map (·.1), Document.lookup d q = some (val' q) := fun q hq => by
    rw [h q hq]; exact congrArg some (if_neg (he q hq)).symm
  have rt : ∀ (base : Path) (ns : List String), (∀ q ∈ under base ns, q ∈ xmlKeys) →
      readTable d base ns = .ok (histTable val' (fun _ => true) base ns) :=
    fun base ns hn => readTable_of h' base fun q hq => hk q (hn q hq)
  have hall : d.all (fun e => readPaths.contains e.1) = true := List.all_eq_true.2 ha
  have hext : freshTable (fun _ => wind) [] extraNames = histTable val' (fun _ => false) [] extraNames := by
    refine List.map_congr_left fun n hn => ?_
    have : ([] ++ n.toList) ∈ extraKeys := List.mem_map.2 ⟨n, hn, rfl⟩
    simp only [val', if_pos this]
  simp only [readCar, readTyre, readAxle, hf, hr, Res.bind_ok, Bool.false_eq_true, if_false, if_true,
    rt "vehicle/front-tire/".toList tyreBaseNames (by simp +contextual only [xmlKeys, List.mem_append, true_or, or_true, implies_true]),
    rt "vehicle/front-tire/".toList tyreOwnNames (by simp +contextual only [xmlKeys, List.mem_append, true_or, or_true, implies_true]),
    rt "vehicle/front-tire/".toList tyreModelNames (by simp +contextual only [xmlKeys, List.mem_append, true_or, or_true, implies_true]),
    rt "vehicle/rear-tire/".toList tyreBaseNames (by simp +contextual only [xmlKeys, List.mem_append, true_or, or_true, implies_true]),
    rt "vehicle/rear-tire/".toList tyreOwnNames (by simp +contextual only [xmlKeys, List.mem_append, true_or, or_true, implies_true]),
    rt "vehicle/rear-tire/".toList tyreModelNames (by simp +contextual only [xmlKeys, List.mem_append, true_or, or_true, implies_true]),
    rt "vehicle/front-axle/".toList (axleNames false) (by simp +contextual only [xmlKeys, List.mem_append, true_or, or_true, implies_true]),
    rt "vehicle/rear-axle/".toList (axleNames true) (by simp +contextual only [xmlKeys, List.mem_append, true_or, or_true, implies_true]),
    rt ("vehicle/front-axle/".toList ++ "brakes/".toList) brakeNames (by simp +contextual only [xmlKeys, List.mem_append, true_or, or_true, implies_true]),
    rt ("vehicle/rear-axle/".toList ++ "brakes/".toList) brakeNames (by simp +contextual only [xmlKeys, List.mem_append, true_or, or_true, implies_true]),
    rt ("vehicle/rear-axle/".toList ++ "engine/".toList) engineNames (by simp +contextual only [xmlKeys, List.mem_append, true_or, or_true, implies_true]),
    rt ("vehicle/rear-axle/".toList ++ "boost/".toList) engineNames (by simp +contextual only [xmlKeys, List.mem_append, true_or, or_true, implies_true]),
    rt chassisPath chassisBaseNames (by simp +contextual only [xmlKeys, List.mem_append, true_or, implies_true]),
    rt chassisPath chassisOwnNames (by simp +contextual only [xmlKeys, List.mem_append, or_true, implies_true]),
    hall, hext]
  rfl

/-- Constructing a car from a document either works or throws; it works only if every parameter is there and
nothing else is. -/
theorem readCar_inv [Field K] {d : Document K} {type : Path → Res TyreType} {wind : K} {c : Car K}
    (h : readCar d type wind = .ok c) :
    (∀ q ∈ xmlKeys, q ∈ d.map (·.1)) ∧ (∀ e ∈ d, readPaths.contains e.1 = true) ∧
      (∃ tf, type "vehicle/front-tire/".toList = .ok tf) ∧ ∃ tr, type "vehicle/rear-tire/".toList = .ok tr := by
  simp only [readCar, readTyre, readAxle, Res.bind_eq_ok, Bool.false_eq_true, if_false, if_true] at h
  obtain ⟨_, ⟨tf, htf, _, h1, _, h2, _, h3, _⟩, _, _, _, ⟨_, h4, _, h5, _, _, _, _, _⟩, _,
    ⟨tr, htr, _, h6, _, h7, _, h8, _⟩, _, _, _, ⟨_, h9, _, h10, _, h11, _, h12, _⟩, _, h13, _, h14, h15⟩ := h
  have hall : d.all (fun e => readPaths.contains e.1) = true := by
    by_contra hn
    rw [if_neg hn] at h15
    cases h15
  refine ⟨?_, List.all_eq_true.1 hall, ⟨tf, htf⟩, tr, htr⟩
  intro q hq
  simp only [xmlKeys, List.mem_append, List.not_mem_nil, or_false] at hq
  rcases hq with (((hq | (((hq | hq) | hq) | hq) | hq) | ((((hq | hq) | hq) | hq) | (hq | hq)) | hq) | hq)
  · exact readTable_inv h13 q hq
  · exact readTable_inv h1 q hq
  · exact readTable_inv h2 q hq
  · exact readTable_inv h3 q hq
  · exact readTable_inv h5 q hq
  · exact readTable_inv h4 q hq
  · exact readTable_inv h6 q hq
  · exact readTable_inv h7 q hq
  · exact readTable_inv h8 q hq
  · exact readTable_inv h10 q hq
  · exact readTable_inv h11 q hq
  · exact readTable_inv h12 q hq
  · exact readTable_inv h9 q hq
  · exact readTable_inv h14 q hq

theorem bind_not_ub {α β : Type*} {x : Res α} {f : α → Res β} (hx : x ≠ .ub) (hf : ∀ a, f a ≠ .ub) :
    x.bind f ≠ .ub := by
  cases x with
  | ok a => exact hf a
  | throw => simp
  | ub => exact absurd rfl hx

theorem readTable_not_ub (d : Document K) (base : Path) (ns : List String) : readTable d base ns ≠ .ub := by
  rcases readTable_cases d base ns with ⟨t, h⟩ | h <;> rw [h] <;> simp

theorem readCar_not_ub [Field K] {d : Document K} {type : Path → Res TyreType} {wind : K}
    (ht : ∀ p, type p ≠ .ub) : readCar d type wind ≠ .ub := by
  have hy : ∀ p, readTyre d type p ≠ .ub := fun p =>
    bind_not_ub (ht p) fun _ => bind_not_ub (readTable_not_ub _ _ _) fun _ =>
      bind_not_ub (readTable_not_ub _ _ _) fun _ => bind_not_ub (readTable_not_ub _ _ _) fun _ => by simp
  have ha : ∀ pw path (l r : Tyre K), readAxle d pw path l r ≠ .ub := fun pw path l r =>
    bind_not_ub (readTable_not_ub _ _ _) fun _ => bind_not_ub (readTable_not_ub _ _ _) fun _ =>
      bind_not_ub (by split_ifs; exacts [readTable_not_ub _ _ _, by simp]) fun _ =>
        bind_not_ub (by split_ifs; exacts [readTable_not_ub _ _ _, by simp]) fun _ => by simp
  refine bind_not_ub (hy _) fun _ => bind_not_ub (hy _) fun _ => bind_not_ub (ha _ _ _ _) fun _ =>
    bind_not_ub (hy _) fun _ => bind_not_ub (hy _) fun _ => bind_not_ub (ha _ _ _ _) fun _ =>
    bind_not_ub (readTable_not_ub _ _ _) fun _ => bind_not_ub (readTable_not_ub _ _ _) fun _ => ?_
  split_ifs <;> simp

/-! ### Declared parameters -/

theorem eval_const [Field K] [LinearOrder K] {p : Param K} {t x v : K} (hx : ∀ y ∈ p.values, y = x)
    (h : eval p t = .ok v) : v = x := by
  have hi : ∀ {i : Nat} {y : K}, idx p.values i = .ok y → y = x := by
    intro i y hy
    rw [idx_eq_ok] at hy
    exact hx y (List.mem_of_getElem? hy)
  rw [eval] at h
  split_ifs at h with h1
  · exact hi h
  · dsimp only at h
    split_ifs at h with h2 h3
    · exact hi h
    · rw [Parameter.back] at h
      split_ifs at h
      exact hi h
    · simp only [Res.bind_eq_ok] at h
      obtain ⟨a, _, b, _, va, hva, vb, hvb, h⟩ := h
      rw [hi hva, hi hvb] at h
      simp only [sub_self, mul_zero, add_zero, Res.ok.injEq] at h
      exact h.symm

/-- The paths of the declared parameters. -/
def declared (ps : List (Param K)) : List Path := ps.map fun d => d.path.toList

/-- What the loop over the declared parameters does. -/
theorem apply_hist [Field K] [LinearOrder K] (tf tr : TyreType) (t : K) :
    ∀ (ps : List (Param K)) (val : Path → K) (u : Path → Bool), (∀ d ∈ ps, ∃ v, eval d t = .ok v) →
      ∃ val' u', (applyParams (histCar tf tr val u) t ps).1 = histCar tf tr val' u' ∧
        (∀ q, q ∉ declared ps → val' q = val q ∧ u' q = u q) ∧
        ((∀ q ∈ declared ps, q ∈ carKeys) → (declared ps).Nodup →
          (applyParams (histCar tf tr val u) t ps).2 = .done ∧
          ∀ d ∈ ps, eval d t = .ok (val' d.path.toList) ∧ u' d.path.toList = true) ∧
        ((∃ q ∈ declared ps, q ∉ carKeys) → (applyParams (histCar tf tr val u) t ps).2 = .thrown)
  | [], val, u, _ => ⟨val, u, rfl, fun _ _ => ⟨rfl, rfl⟩, fun _ _ => ⟨rfl, by simp⟩, by simp [declared]⟩
  | d :: ps, val, u, he => by
    obtain ⟨x, hx⟩ := he d (by simp)
    by_cases hd : d.path.toList ∈ carKeys
    · obtain ⟨val', u', h1, h2, h3, h4⟩ := apply_hist tf tr t ps (at_ val d.path.toList x) (at_ u d.path.toList true)
        (fun e h => he e (by simp [h]))
      have e : applyParams (histCar tf tr val u) t (d :: ps)
          = applyParams (histCar tf tr (at_ val d.path.toList x) (at_ u d.path.toList true)) t ps := by
        rw [applyParams, hx]
        simp only [setHist_mem tf tr val u x hd]
      refine ⟨val', u', by rw [e, h1], fun q hq => ?_, fun ha hn => ?_, fun hc => ?_⟩
      · simp only [declared, List.map_cons, List.mem_cons, not_or] at hq
        obtain ⟨a, b⟩ := h2 q hq.2
        rw [a, b, at_ne _ _ hq.1, at_ne _ _ hq.1]
        exact ⟨rfl, rfl⟩
      · simp only [declared, List.map_cons, List.nodup_cons, List.forall_mem_cons] at hn ha
        obtain ⟨a, b⟩ := h3 ha.2 hn.2
        refine ⟨by rw [e, a], fun d' hd' => ?_⟩
        rcases List.mem_cons.1 hd' with rfl | hd'
        · obtain ⟨a, b⟩ := h2 _ hn.1
          rw [a, b, at_same, at_same]
          exact ⟨hx, rfl⟩
        · exact b d' hd'
      · obtain ⟨q, hq, hq'⟩ := hc
        rw [e]
        simp only [declared, List.map_cons, List.mem_cons] at hq
        rcases hq with rfl | hq
        · exact absurd hd hq'
        · exact h4 ⟨q, hq, hq'⟩
    · have e : applyParams (histCar tf tr val u) t (d :: ps) = (histCar tf tr val u, .thrown) := by
        rw [applyParams, hx]
        simp only [setHist_notMem tf tr val u x hd]
      refine ⟨val, u, by rw [e], fun _ _ => ⟨rfl, rfl⟩, fun ha => ?_, fun _ => by rw [e]⟩
      exact absurd (ha d.path.toList (by simp [declared])) hd

theorem fillFirst_declared (x : K) (p : Path) : ∀ ps : List (Param K), declared (fillFirst x p ps) = declared ps
  | [] => rfl
  | d :: ps => by
    rw [fillFirst]
    split_ifs
    · simp [declared]
    · have := fillFirst_declared x p ps
      simp only [declared, List.map_cons] at this ⊢
      rw [this]

theorem fillFirst_values (x : K) (p : Path) : ∀ ps : List (Param K), (declared ps).Nodup →
    ∀ d ∈ fillFirst x p ps, d.path.toList = p → ∀ y ∈ d.values, y = x
  | [], _ => by simp [fillFirst]
  | e :: ps, hn => by
    simp only [declared, List.map_cons, List.nodup_cons] at hn
    rw [fillFirst]
    split_ifs with h
    · intro d hd hp
      rcases List.mem_cons.1 hd with rfl | hd
      · intro y hy
        obtain ⟨_, _, rfl⟩ := List.mem_map.1 hy
        rfl
      · exact absurd (List.mem_map.2 ⟨d, hd, by rw [hp, h]⟩) hn.1
    · intro d hd hp
      rcases List.mem_cons.1 hd with rfl | hd
      · exact absurd hp h
      · exact fillFirst_values x p ps hn.2 d hd hp

theorem wellFormed_map [LinearOrder K] {d : Param K} (h : WellFormed d) (x : K) :
    WellFormed { d with values := d.values.map fun _ => x } := by
  cases h with
  | constant hv ha hm => exact .constant (by simpa using hv) ha hm
  | varying h =>
    exact .varying ⟨by simpa using h.two, by simpa using h.one_alias_each, h.increasing,
      by simpa using h.refers, by simpa using h.used⟩

theorem fillFirst_wf [LinearOrder K] (x : K) (p : Path) : ∀ ps : List (Param K), (∀ d ∈ ps, WellFormed d) →
    ∀ d ∈ fillFirst x p ps, WellFormed d
  | [], _ => by simp [fillFirst]
  | e :: ps, h => by
    rw [fillFirst]
    split_ifs
    · intro d hd
      rcases List.mem_cons.1 hd with rfl | hd
      · exact wellFormed_map (h e (by simp)) x
      · exact h d (by simp [hd])
    · intro d hd
      rcases List.mem_cons.1 hd with rfl | hd
      · exact h d (by simp)
      · exact fillFirst_wf x p ps (fun d hd => h d (by simp [hd])) d hd

/-- The declared parameters as every program leaves them. -/
structure GoodParams [LinearOrder K] (ps : List (Param K)) : Prop where
  nodup : (declared ps).Nodup
  wf : ∀ d ∈ ps, WellFormed d

theorem addParameter_good [LinearOrder K] {ps ps' : List (Param K)} (g : GoodParams ps) {d : Decl K}
    (h : Parameter.addParameter ps d = .ok ps') :
    GoodParams ps' ∧ ∃ e : Param K, ps' = ps ++ [e] ∧ e.path = d.path := by
  rw [Parameter.addParameter] at h
  split_ifs at h with hany
  obtain ⟨e, he, h⟩ := Res.bind_eq_ok.1 h
  obtain rfl : ps ++ [e] = ps' := by simpa using h
  have hd : e.path = d.path ∧ WellFormed e := by
    cases d with
    | constant p a v =>
      simp only [Decl.build, Res.ok.injEq] at he
      subst he
      exact ⟨rfl, .constant rfl rfl rfl⟩
    | varying p a v m =>
      simp only [Decl.build] at he
      obtain ⟨h1, h2⟩ := (Parameter.mkVarying_ok_iff _ _ _ _ _).1 he
      subst h2
      exact ⟨rfl, .varying h1⟩
  refine ⟨⟨?_, ?_⟩, e, rfl, hd.1⟩
  · simp only [declared, List.map_append, List.map_cons, List.map_nil]
    rw [List.nodup_append]
    refine ⟨g.nodup, by simp, ?_⟩
    intro a ha b hb
    obtain ⟨c, hc, rfl⟩ := List.mem_map.1 ha
    obtain rfl := List.mem_singleton.1 hb
    intro hab
    apply hany
    rw [List.any_eq_true]
    refine ⟨c, hc, ?_⟩
    have : c.path = e.path := String.toList_inj.1 hab
    simp [this, hd.1]
  · intro p hp
    rcases List.mem_append.1 hp with hp | hp
    · exact g.wf p hp
    · obtain rfl := List.mem_singleton.1 hp
      exact hd.2

/-! ### Several copies -/

theorem eachCopy_ok {g : Vehicle K → Vehicle K} {F : Vehicle K → Res (Vehicle K)} :
    ∀ {ms : List (Vehicle K)}, (∀ m ∈ ms, F m = .ok (g m)) → eachCopy F ms = ms.map g
  | [], _ => rfl
  | m :: ms, h => by
    have := eachCopy_ok (fun m' hm => h m' (List.mem_cons_of_mem _ hm))
    rw [eachCopy, h m (by simp)]
    simp only [this, List.map_cons]

theorem eachCopy_fail {F : Vehicle K → Res (Vehicle K)} :
    ∀ {ms : List (Vehicle K)}, (∀ m ∈ ms, ∀ m', F m ≠ .ok m') → eachCopy F ms = ms
  | [], _ => rfl
  | m :: ms, h => by
    rw [eachCopy]
    cases hm : F m with
    | ok m' => exact absurd hm (h m (by simp) m')
    | throw => rfl
    | ub => rfl

/-- The copies agree on the declared parameters and on everything that is not declared. -/
def Agree [Field K] [LinearOrder K] (val : Path → K) (ms : List (Vehicle K)) : Prop :=
  ∃ (ps : List (Param K)) (u : Path → Bool), GoodParams ps ∧ ∀ m ∈ ms, m.params = ps ∧
    ∃ (val' : Path → K) (u' : Path → Bool), m.car = histCar .normal .normal val' u' ∧
      ∀ q, q ∉ declared ps → val' q = val q ∧ u' q = u q

theorem agree_call [Field K] [LinearOrder K] [IsStrictOrderedRing K] {val : Path → K} {ms : List (Vehicle K)}
    (h : Agree val ms) (call : Call K) :
    (callOn ms call).length = ms.length ∧
      Agree (match call with | .set p x => (if p ∈ carKeys then at_ val p x else val) | _ => val) (callOn ms call) := by
  obtain ⟨ps, u, g, h⟩ := h
  cases call with
  | set p x =>
    by_cases hp : p ∈ carKeys
    · have e : callOn ms (.set p x) = ms.map fun m => ⟨updCar p x m.car, fillFirst x p m.params⟩ := by
        refine eachCopy_ok fun m hm => ?_
        obtain ⟨_, val', u', hc, _⟩ := h m hm
        rw [Vehicle.setParameter, hc, setHist_mem _ _ _ _ x hp, updCar_hist]
        rfl
      rw [e]
      refine ⟨by simp, fillFirst x p ps, at_ u p true, ⟨?_, fillFirst_wf x p ps g.wf⟩, ?_⟩
      · rw [fillFirst_declared]; exact g.nodup
      · intro m' hm'
        obtain ⟨m, hm, rfl⟩ := List.mem_map.1 hm'
        obtain ⟨h1, val', u', hc, hv⟩ := h m hm
        refine ⟨by rw [h1], at_ val' p x, at_ u' p true, by rw [hc, updCar_hist], ?_⟩
        intro q hq
        rw [fillFirst_declared] at hq
        obtain ⟨a, b⟩ := hv q hq
        simp only [if_pos hp, at_, a, b, and_self]
    · have e : callOn ms (.set p x) = ms := by
        refine eachCopy_fail fun m hm m' => ?_
        obtain ⟨_, val', u', hc, _⟩ := h m hm
        rw [Vehicle.setParameter, hc, setHist_notMem _ _ _ _ x hp]
        simp
      rw [e]
      simp only [if_neg hp]
      exact ⟨trivial, ps, u, g, h⟩
  | add d =>
    cases ha : Parameter.addParameter ps d with
    | ok ps' =>
      obtain ⟨g', e', hps', _⟩ := addParameter_good g ha
      have e : callOn ms (.add d) = ms.map fun m => { m with params := ps' } := by
        refine eachCopy_ok fun m hm => ?_
        rw [Vehicle.addParameter, (h m hm).1, ha]
        rfl
      rw [e]
      refine ⟨by simp, ps', u, g', ?_⟩
      intro m' hm'
      obtain ⟨m, hm, rfl⟩ := List.mem_map.1 hm'
      obtain ⟨_, val', u', hc, hv⟩ := h m hm
      refine ⟨rfl, val', u', hc, fun q hq => hv q fun hq' => hq ?_⟩
      simp only [hps', declared, List.map_append, List.mem_append] at hq' ⊢
      exact .inl hq'
    | throw =>
      have e : callOn ms (.add d) = ms := by
        refine eachCopy_fail fun m hm m' => ?_
        rw [Vehicle.addParameter, (h m hm).1, ha]
        simp
      rw [e]
      exact ⟨rfl, ps, u, g, h⟩
    | ub =>
      have e : callOn ms (.add d) = ms := by
        refine eachCopy_fail fun m hm m' => ?_
        rw [Vehicle.addParameter, (h m hm).1, ha]
        simp
      rw [e]
      exact ⟨rfl, ps, u, g, h⟩
  | evaluate i t =>
    refine ⟨by simp [callOn], ps, u, g, ?_⟩
    intro m' hm'
    have hm2 : m' ∈ ms ∨ ∃ m ∈ ms, m' = (m.evaluate t).1 := by
      simp only [callOn] at hm'
      obtain ⟨j, hj, rfl⟩ := List.getElem_of_mem hm'
      rw [List.getElem_modify]
      split_ifs
      · exact .inr ⟨_, List.getElem_mem _, rfl⟩
      · exact .inl (List.getElem_mem _)
    rcases hm2 with hm | ⟨m, hm, rfl⟩
    · exact h m' hm
    · obtain ⟨h1, val', u', hc, hv⟩ := h m hm
      obtain ⟨val'', u'', k1, k2, _, _⟩ := apply_hist .normal .normal t ps val' u'
        fun d hd => Parameter.C24_total d (g.wf d hd) t
      refine ⟨h1, val'', u'', ?_, fun q hq => ?_⟩
      · simp only [Vehicle.evaluate, h1, hc]; exact k1
      · obtain ⟨a, b⟩ := k2 q hq
        obtain ⟨a', b'⟩ := hv q hq
        exact ⟨a.trans a', b.trans b'⟩

theorem agree_fresh [Field K] [LinearOrder K] (init : Path → K) : Agree init (freshFour init) := by
  refine ⟨[], fun _ => false, ⟨by simp [declared], by simp⟩, fun m hm => ?_⟩
  obtain rfl := List.eq_of_mem_replicate hm
  exact ⟨rfl, init, fun _ => false, freshCar_hist init, fun _ _ => ⟨rfl, rfl⟩⟩

theorem lastSet_congr {val val' : Path → K} {q : Path} : ∀ (h : List (Path × K)), val q = val' q →
    Spec.lastSet val h q = Spec.lastSet val' h q
  | [], e => e
  | (p, v) :: h, e => by
    simp only [Spec.lastSet]
    exact lastSet_congr h (by split_ifs; exacts [rfl, e])

/-- After any program the copies agree, and what is not declared is what was last set. -/
theorem agree_program [Field K] [LinearOrder K] [IsStrictOrderedRing K] :
    ∀ (prog : List (Call K)) (val : Path → K) (ms : List (Vehicle K)), Agree val ms →
      (prog.foldl callOn ms).length = ms.length ∧
        ∃ val', Agree val' (prog.foldl callOn ms) ∧
          ∀ q ∈ carKeys, val' q = Spec.lastSet val (Spec.settings prog) q
  | [], val, ms, h => ⟨rfl, val, h, fun _ _ => rfl⟩
  | call :: prog, val, ms, h => by
    obtain ⟨h1, h2⟩ := agree_call h call
    obtain ⟨h3, val', h4, h5⟩ := agree_program prog _ _ h2
    refine ⟨by rw [List.foldl_cons, h3, h1], val', h4, fun q hq => ?_⟩
    rw [h5 q hq]
    cases call with
    | set p x =>
      simp only [Spec.settings, Spec.lastSet]
      split_ifs with hp
      · rfl
      · exact lastSet_congr _ (if_neg fun e : q = p => hp (e ▸ hq)).symm
    | add d => rfl
    | evaluate i t => rfl

end Verif.Routing
