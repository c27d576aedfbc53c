import Verif.Lemmas.RoutingHistory

/-! Lemmas on the order in which the parameters of the F1 car are given. -/

set_option autoImplicit false

namespace Verif.Routing

open Spec

variable {K : Type*}

theorem histTable_congr {val val' : Path → K} {u u' : Path → Bool} {base : Path} {ns : List String}
    (h : ∀ q ∈ under base ns, val q = val' q ∧ u q = u' q) : histTable val u base ns = histTable val' u' base ns := by
  refine List.map_congr_left fun n hn => ?_
  obtain ⟨h1, h2⟩ := h (base ++ n.toList) (List.mem_map_of_mem hn)
  rw [h1, h2]

theorem histTyre_congr {ty : TyreType} {val val' : Path → K} {u u' : Path → Bool} {path : Path}
    (h : ∀ q ∈ tyreKeys path, val q = val' q ∧ u q = u' q) : histTyre ty val u path = histTyre ty val' u' path := by
  have h' : ∀ ns : List String, (∀ n ∈ ns, n ∈ tyreOwnNames ++ tyreModelNames ++ tyreBaseNames) →
      histTable val u path ns = histTable val' u' path ns := fun ns hs => histTable_congr fun q hq => by
    obtain ⟨n, hn, rfl⟩ := List.mem_map.1 hq
    exact h _ (List.mem_map_of_mem (hs n hn))
  rw [histTyre, h' tyreOwnNames fun n hn => List.mem_append_left _ (List.mem_append_left _ hn),
    h' tyreModelNames fun n hn => List.mem_append_left _ (List.mem_append_right _ hn),
    h' tyreBaseNames fun n hn => List.mem_append_right _ hn]
  rfl

theorem histAxle_congr [Field K] {ty : TyreType} {val val' : Path → K} {u u' : Path → Bool} {pw : Bool} {path tp : Path}
    (h : ∀ q ∈ axleKeys pw path tp, val q = val' q ∧ u q = u' q) :
    histAxle ty val u pw path tp = histAxle ty val' u' pw path tp := by
  simp only [axleKeys, axleOnly, List.mem_append] at h
  rw [histAxle, histTable_congr fun q hq => h q (.inl (.inl (.inl (.inl hq)))),
    histTable_congr (base := path ++ "brakes/".toList) fun q hq => h q (.inl (.inl (.inl (.inr hq)))),
    histTable_congr (base := path ++ "engine/".toList) fun q hq => h q (.inl (.inl (.inr hq))),
    histTable_congr (base := path ++ "boost/".toList) fun q hq => h q (.inl (.inr hq)),
    histTyre_congr fun q hq => h q (.inr hq)]
  rfl

theorem histCar_keys [Field K] {tf tr : TyreType} {val val' : Path → K} {u u' : Path → Bool}
    (h : ∀ q ∈ carKeys, val q = val' q ∧ (q ∉ extraKeys → u q = u' q)) : histCar tf tr val u = histCar tf tr val' u' := by
  have e1 : ∀ q ∈ under chassisPath chassisOwnNames, q ∉ extraKeys := by decide +kernel
  have e2 : ∀ q ∈ under chassisPath chassisBaseNames, q ∉ extraKeys := by decide +kernel
  have e3 : ∀ q ∈ frontKeys, q ∉ extraKeys := by decide +kernel
  have e4 : ∀ q ∈ rearKeys, q ∉ extraKeys := by decide +kernel
  simp only [carKeys, List.mem_append] at h
  have both : ∀ q, (val q = val' q ∧ (q ∉ extraKeys → u q = u' q)) → q ∉ extraKeys → val q = val' q ∧ u q = u' q :=
    fun q h hq => ⟨h.1, h.2 hq⟩
  rw [histCar, histTable_congr fun q hq => both q (h q (.inl (.inl (.inl (.inl hq))))) (e1 q hq),
    histTable_congr (base := chassisPath) (ns := chassisBaseNames) fun q hq => both q (h q (.inl (.inl (.inl (.inr hq))))) (e2 q hq),
    histTable_congr (base := []) (ns := extraNames) (u := fun _ => false) fun q hq =>
      ⟨(h q (.inl (.inl (.inr (by simpa [under, extraKeys] using hq))))).1, rfl⟩,
    histAxle_congr (pw := false) fun q hq => both q (h q (.inl (.inr hq))) (e3 q hq),
    histAxle_congr (pw := true) fun q hq => both q (h q (.inr hq)) (e4 q hq)]
  rfl

/-- The last value given to a path that was given once is that value. -/
theorem lastSet_once {init : Path → K} : ∀ {h : List (Path × K)} {q : Path} {v : K}, (h.map (·.1)).Nodup → (q, v) ∈ h →
    lastSet init h q = v
  | (p, w) :: h, q, v, hn, hm => by
    rw [List.map_cons, List.nodup_cons] at hn
    rw [lastSet]
    rcases List.mem_cons.1 hm with e | hm
    · obtain ⟨rfl, rfl⟩ := Prod.mk.inj e
      have : ∀ (h : List (Path × K)) (g : Path → K), q ∉ h.map (·.1) → lastSet g h q = g q := by
        intro h
        induction h with
        | nil => intro g _; rfl
        | cons e h ih =>
          intro g hq
          rw [List.map_cons, List.mem_cons, not_or] at hq
          rw [show e = (e.1, e.2) from rfl, lastSet, ih _ hq.2, if_neg hq.1]
      rw [this h _ hn.1, if_pos rfl]
    · rw [lastSet_congr h (val' := fun r => if r = p then w else init r) rfl]
      exact lastSet_once hn.2 hm

theorem lastSet_never {init : Path → K} : ∀ {h : List (Path × K)} {q : Path}, q ∉ h.map (·.1) → lastSet init h q = init q
  | [], _, _ => rfl
  | (p, w) :: h, q, hq => by
    rw [List.map_cons, List.mem_cons, not_or] at hq
    rw [lastSet, lastSet_never hq.2, if_neg hq.1]

theorem lookup_once {d : Document K} (hn : (d.map (·.1)).Nodup) {q : Path} {v : K} (hm : (q, v) ∈ d) : d.lookup q = some v := by
  obtain ⟨w, hw⟩ := lookup_some (List.mem_map_of_mem (f := (·.1)) hm)
  have hw' : (q, w) ∈ d := by
    unfold Document.lookup at hw
    cases hf : d.find? (fun e => decide (e.1 = q)) with
    | none => rw [hf] at hw; cases hw
    | some e =>
      rw [hf] at hw
      obtain rfl := Option.some.inj hw
      have h1 := List.find?_some hf
      have h2 := List.mem_of_find?_eq_some hf
      rw [← of_decide_eq_true h1]
      exact h2
  rw [hw, ← lastSet_once (init := fun _ => v) hn hw', lastSet_once hn hm]

end Verif.Routing
