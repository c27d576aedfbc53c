import Verif.Props.Routing
import Verif.Lemmas.RoutingOrder

/-! Properties of the order in which the parameters of the F1 car are given (C260) and of cars made by hand (C261). -/

set_option autoImplicit false

namespace Verif.Routing

open Spec

variable {K : Type*}

/-! ## C260 -/

/-- C260: two ways of setting the parameters that leave the same last value for every parameter, and set the same ones, make the
same car. -/
theorem C260_last [Field K] (init : Path → K) (h h' : List (Path × K))
    (hv : ∀ q ∈ documented, lastSet init h q = lastSet init h' q)
    (hs : ∀ q ∈ required, q ∈ h.map (·.1) ↔ q ∈ h'.map (·.1)) : run (freshCar init) h = run (freshCar init) h' := by
  rw [freshCar_hist, run_hist, run_hist]
  refine histCar_keys fun q hq => ⟨hv q ((carKeys_documented q).1 hq), fun hx => ?_⟩
  have : q ∈ required := (xmlKeys_required q).1 (((xmlKeys_carKeys q).1 hq).resolve_right hx)
  simp only [Bool.false_or, hs q this]

/-- C260: parameters that are set once each may be set in any order. -/
theorem C260_order [Field K] (init : Path → K) (h h' : List (Path × K)) (hp : h.Perm h') (hn : (h.map (·.1)).Nodup) :
    run (freshCar init) h = run (freshCar init) h' := by
  refine C260_last init h h' (fun q _ => ?_) fun q _ => (hp.map _).mem_iff
  by_cases hq : q ∈ h.map (·.1)
  · obtain ⟨⟨q', v⟩, he, rfl⟩ := List.mem_map.1 hq
    rw [lastSet_once hn he, lastSet_once ((hp.map _).nodup_iff.1 hn) (hp.mem_iff.1 he)]
  · rw [lastSet_never hq, lastSet_never fun h2 => hq ((hp.map _).mem_iff.2 h2)]

/-- C260: a parameter that is set again with another one in between. -/
example : run (freshCar fun _ => (0 : ℚ)) exHistory =
    run (freshCar fun _ => 0) [("vehicle/rear-tire/Qx".toList, 19 / 10), ("vehicle/chassis/mass".toList, 660)] :=
  C260_last _ _ _ (by decide +kernel) (by decide +kernel)

example : run (freshCar fun _ => (0 : ℚ)) [("vehicle/front-axle/track".toList, 2), ("vehicle/chassis/front_axle/x".toList, 3)] =
    run (freshCar fun _ => 0) [("vehicle/chassis/front_axle/x".toList, 3), ("vehicle/front-axle/track".toList, 2)] :=
  C260_order _ _ _ (List.Perm.swap _ _ _) (by decide +kernel)

/-- C260: the elements of a file that gives each parameter once may be in any order. -/
theorem C260_file [Field K] (d d' : Document K) (hp : d.Perm d') (hn : (d.map (·.1)).Nodup) (type : Path → Res TyreType) (wind : K)
    (ht : ∀ p, type p ≠ .ub) : readCar d type wind = readCar d' type wind := by
  have hn' := (hp.map (·.1)).nodup_iff.1 hn
  by_cases hc : (∀ q ∈ required, q ∈ d.map (·.1)) ∧ (∀ e ∈ d, e.1 ∈ required) ∧
      (∃ tf, type "vehicle/front-tire/".toList = .ok tf) ∧ ∃ tr, type "vehicle/rear-tire/".toList = .ok tr
  · obtain ⟨h1, h2, ⟨tf, hf⟩, tr, hr⟩ := hc
    have hv : ∀ (d : Document K), (d.map (·.1)).Nodup → ∀ q ∈ d.map (·.1), d.lookup q = some (lastSet (fun _ => 0) d q) := by
      intro d hn q hq
      obtain ⟨⟨q', v⟩, he, rfl⟩ := List.mem_map.1 hq
      rw [lookup_once hn he, lastSet_once hn he]
    have a := readCar_of (d := d) (val := lastSet (fun _ => 0) d) (type := type) wind (hv d hn)
      (fun q hq => h1 q ((xmlKeys_required q).1 hq)) (fun e he => (xmlKeys_read _).2 ((xmlKeys_required _).2 (h2 e he))) hf hr
    have b := readCar_of (d := d') (val := lastSet (fun _ => 0) d') (type := type) wind (hv d' hn')
      (fun q hq => (hp.map (·.1)).mem_iff.1 (h1 q ((xmlKeys_required q).1 hq)))
      (fun e he => (xmlKeys_read _).2 ((xmlKeys_required _).2 (h2 e (hp.mem_iff.2 he)))) hf hr
    rw [a, b]
    refine congrArg _ (histCar_keys fun q hq => ⟨?_, fun _ => rfl⟩)
    split_ifs with hx
    · rfl
    · have hq' := h1 q ((xmlKeys_required q).1 (((xmlKeys_carKeys q).1 hq).resolve_right hx))
      obtain ⟨⟨q', v⟩, he, rfl⟩ := List.mem_map.1 hq'
      rw [lastSet_once hn he, lastSet_once hn' (hp.mem_iff.1 he)]
  · rw [(C102_accepts d type wind ht).2 hc, (C102_accepts d' type wind ht).2 fun hc' => hc
      ⟨fun q hq => (hp.map (·.1)).mem_iff.2 (hc'.1 q hq), fun e he => hc'.2.1 e (hp.mem_iff.1 he), hc'.2.2⟩]

example : ∃ c, readCar (required.map fun q => (q, (3 : ℚ))) (fun _ => .ok .normal) 0 = .ok c ∧
    readCar (required.map fun q => (q, (3 : ℚ))).reverse (fun _ => .ok .normal) 0 = .ok c := by
  obtain ⟨c, hc, -⟩ := (C102_accepts (required.map fun q => (q, (3 : ℚ))) (fun _ => .ok .normal) 0 (by simp)).1
    ⟨fun q hq => by rw [List.map_map]; exact List.mem_map.2 ⟨q, hq, rfl⟩,
      fun e he => by obtain ⟨q, hq, rfl⟩ := List.mem_map.1 he; exact hq, ⟨_, rfl⟩, _, rfl⟩
  refine ⟨c, hc, ?_⟩
  rw [← hc]
  exact (C260_file _ _ (List.reverse_perm _).symm (by rw [List.map_map]; decide +kernel) _ _ (by simp)).symm

/-! ## C261 -/

/-- C261: the car of a file that gives each parameter once, with normal tyres, is the car made by setting each parameter of the
file, as long as the wind was not set. -/
theorem C261_by_hand [Field K] (d : Document K) (hn : (d.map (·.1)).Nodup) (type : Path → Res TyreType) (wind : K) (c : Car K)
    (h : readCar d type wind = .ok c) (hf : type "vehicle/front-tire/".toList = .ok .normal)
    (hr : type "vehicle/rear-tire/".toList = .ok .normal) (init : Path → K) (hw : ∀ s ∈ windPaths, init s.toList = wind) :
    run (freshCar init) d = c := by
  obtain ⟨h1, h2, -, -⟩ := readCar_inv h
  have hv : ∀ q ∈ d.map (·.1), d.lookup q = some (lastSet init d q) := by
    intro q hq
    obtain ⟨⟨q', v⟩, he, rfl⟩ := List.mem_map.1 hq
    rw [lookup_once hn he, lastSet_once hn he]
  have a := readCar_of (d := d) (val := lastSet init d) (type := type) wind hv h1 h2 hf hr
  rw [a] at h
  obtain rfl := Res.ok.inj h
  rw [freshCar_hist, run_hist]
  refine histCar_keys fun q hq => ⟨?_, fun hx => ?_⟩
  · split_ifs with hx
    · have hq' : q ∉ d.map (·.1) := by
        intro hq'
        obtain ⟨e, he, rfl⟩ := List.mem_map.1 hq'
        exact xmlKeys_extra _ hx ((xmlKeys_read _).1 (h2 e he))
      obtain ⟨s, hs, rfl⟩ := List.mem_map.1 hx
      rw [lastSet_never hq']
      exact hw s hs
    · rfl
  · have := h1 q (((xmlKeys_carKeys q).1 hq).resolve_right hx)
    simp only [Bool.false_or, this, decide_true]

/-- C261 for a file that gives every parameter the value 3. -/
example : readCar (required.map fun q => (q, (3 : ℚ))) (fun _ => .ok .normal) 0 =
    .ok (run (freshCar fun _ => 0) (required.map fun q => (q, (3 : ℚ)))) := by
  obtain ⟨c, hc, -⟩ := (C102_accepts (required.map fun q => (q, (3 : ℚ))) (fun _ => .ok .normal) 0 (by simp)).1
    ⟨fun q hq => by rw [List.map_map]; exact List.mem_map.2 ⟨q, hq, rfl⟩,
      fun e he => by obtain ⟨q, hq, rfl⟩ := List.mem_map.1 he; exact hq, ⟨_, rfl⟩, _, rfl⟩
  rw [hc, C261_by_hand _ (by rw [List.map_map]; decide +kernel) _ _ c hc rfl rfl (fun _ => 0) fun _ _ => rfl]

end Verif.Routing
