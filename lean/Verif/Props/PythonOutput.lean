import Verif.Model.PythonOutput
import Verif.Props.Outputs
import Verif.Props.Python

/-!
# Properties of the outputs asked for from Python
-/

set_option autoImplicit false

namespace Verif.Python

open Verif.Outputs

/-- C274, what holds: for names without null characters the call from Python returns if the library finds the output: if
the vehicle is a kart or an F1 car, there are as many states and controls as it has and the name is that of an output. The
process ends for a vehicle or a name that does not exist. What is missing: the value, see `C274_false`. -/
theorem C274_call_partial (l : Library) (vehicle key : Name) (hv : Plain vehicle) (hk : Plain key) (q u : List ℝ) (s : ℝ) :
    (l.kart vehicle = none → l.f1 vehicle = none → vehicleGetOutput l vehicle q u s key = .aborted) ∧
    ((l.kart vehicle ≠ none ∧ 13 ≤ q.length ∧ 2 ≤ u.length) ∨
        (l.kart vehicle = none ∧ l.f1 vehicle ≠ none ∧ 14 ≤ q.length ∧ 4 ≤ u.length) →
      ((∃ n ∈ VehicleNames.outputNames, key = n.toList) → ∃ x, vehicleGetOutput l vehicle q u s key = .ret x) ∧
      ((∀ n ∈ VehicleNames.outputNames, key ≠ n.toList) → vehicleGetOutput l vehicle q u s key = .aborted)) := by
  unfold vehicleGetOutput
  rw [cstr_plain hv, cstr_plain hk]
  refine ⟨fun h1 h2 => ?_, ?_⟩
  · rw [C222_unknown l vehicle h1 h2]
    rfl
  · rintro (⟨h, hq, hu⟩ | ⟨h, h', hq, hu⟩)
    · obtain ⟨⟨c, t⟩, hc⟩ := Option.ne_none_iff_exists'.1 h
      obtain ⟨k1, k2⟩ := C222_kart l vehicle c t hc q u hq hu s key
      refine ⟨?_, fun hn => by rw [k2 hn]; rfl⟩
      rintro ⟨n, hn, e⟩
      rw [k1 n hn e]
      exact ⟨_, rfl⟩
    · obtain ⟨⟨c, t⟩, hc⟩ := Option.ne_none_iff_exists'.1 h'
      obtain ⟨k1, k2⟩ := C222_f1 l vehicle c t h hc q u hq hu s key
      refine ⟨?_, fun hn => by rw [k2 hn]; rfl⟩
      rintro ⟨n, hn, e⟩
      rw [k1 n hn e]
      exact ⟨_, rfl⟩

/-- C274 is false: whatever the library computes, Python gets no number. -/
theorem C274_false (l : Library) (vehicle key : Name) (hv : Plain vehicle) (hk : Plain key) (q u : List ℝ) (s x : ℝ)
    (h : getOutput l vehicle q u s key = .ok x) :
    vehicleGetOutput l vehicle q u s key = .ret none ∧ ∀ y, vehicleGetOutput l vehicle q u s key ≠ .ret (some y) := by
  have e : vehicleGetOutput l vehicle q u s key = .ret none := by
    unfold vehicleGetOutput
    rw [cstr_plain hv, cstr_plain hk, h]
    rfl
  exact ⟨e, fun y hy => by rw [e] at hy; cases hy⟩

/-- C274: the drag of the car at 50 m/s, which is 1250 N for the library. -/
example : vehicleGetOutput exLibrary "car".toList [0, 0, 0, 0, 50, 0, 0, 0, 0, 0, 0, 0, 0, 0] [0, 0, 0, 0] 7
    "chassis.aerodynamics.drag".toList = .ret none :=
  (C274_false exLibrary "car".toList _ (by unfold Plain; decide) (by unfold Plain; decide) _ _ 7 _
    ((C222_f1 exLibrary "car".toList _ _ exLibrary_not exLibrary_f1 _ _ (by simp) (by simp) 7 _).1
      "chassis.aerodynamics.drag" (by rw [outputNames_eq]; exact List.mem_of_getElem? (i := 15) rfl) rfl)).1

/-- C274: a kart, and a name that is not that of an output. -/
example : vehicleGetOutput exLibrary "kart".toList (List.replicate 13 1) [0, 0] 7 "speed".toList = .aborted := by
  refine ((C274_call_partial exLibrary "kart".toList "speed".toList (by unfold Plain; decide) (by unfold Plain; decide) _ _ 7).2
    (.inl ⟨by rw [exLibrary_kart]; simp, by simp, by simp⟩)).2 fun n hn h => ?_
  rw [outputNames_eq] at hn
  have : n = "speed" := (String.toList_inj.1 h).symm
  subst this
  revert hn
  decide

end Verif.Python
