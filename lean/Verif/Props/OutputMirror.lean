import Verif.Lemmas.OutputMirror
import Verif.Props.Outputs
import Verif.Props.KartMirror

/-! Property theorem C236: the outputs of the mirror image of a vehicle. -/

set_option autoImplicit false

namespace Verif.Outputs

open Verif.Road Verif.Chassis Real

/-- C236, F1 car: the mirror image of the car, on the mirror image of the track and with mirrored inputs and controls,
has the mirror image of the outputs; if it turns, also the same understeer indicator. Missing: the indicator of a car that
goes straight, see `C236_indicator_false`. -/
theorem C236_f1_partial (c : F1.Car) (f : TrackPoint) (q u : Nat → ℝ) :
    let o := values (f1Track c f q u)
    let o' := values (f1Track (F1.mirrorCar c) (F1.mirrorTrack f) (F1.mirrorInputs q) (F1.mirrorControls u))
    Mirrored o o' ∧ (q 6 ≠ 0 → q 4 ≠ 0 ∨ q 5 ≠ 0 → value o' "chassis.understeer_oversteer_indicator"
      = value o "chassis.understeer_oversteer_indicator") := by
  rw [f1Track_mirror]
  refine ⟨mirrored _ _, fun ho hv => ?_⟩
  rw [chassis_understeer_oversteer_indicator, chassis_understeer_oversteer_indicator]
  refine C94_mirror_partial _ _ _ _ _ _ _ _ ho ?_
  rcases hv with h | h
  · exact add_pos_of_pos_of_nonneg (sq_pos_of_ne_zero h) (sq_nonneg _)
  · exact add_pos_of_nonneg_of_pos (sq_nonneg _) (sq_pos_of_ne_zero h)

/-- C236, kart. As in C168, if the steering lifts one front wheel as much as it lowers the other, and if the equations of
the rotation determine it. -/
theorem C236_kart_partial {solve : Vec3 × Vec3 × Vec3 → Vec3 → Vec3} (hs : Kart.Solver solve) (c : Kart.Vehicle)
    (hb : c.front.susp.betaL = -c.front.susp.betaR) (f : TrackPoint) (q u : Nat → ℝ)
    (hdet : Kart.det (Kart.eulerM c (Kart.setState q u)) ≠ 0) :
    let o := values (kartTrack solve c f q u)
    let o' := values (kartTrack solve (Kart.mirrorKart c) (F1.mirrorTrack f) (Kart.mirrorInputs q) (Kart.mirrorControls u))
    Mirrored o o' ∧ (q 3 ≠ 0 → q 1 ≠ 0 ∨ q 2 ≠ 0 → value o' "chassis.understeer_oversteer_indicator"
      = value o "chassis.understeer_oversteer_indicator") := by
  rw [kartTrack_mirror hs c f q u hdet (.inl hb)]
  refine ⟨mirrored _ _, fun ho hv => ?_⟩
  rw [chassis_understeer_oversteer_indicator, chassis_understeer_oversteer_indicator]
  refine C94_mirror_partial _ _ _ _ _ _ _ _ ho ?_
  rcases hv with h | h
  · exact add_pos_of_pos_of_nonneg (sq_pos_of_ne_zero h) (sq_nonneg _)
  · exact add_pos_of_nonneg_of_pos (sq_nonneg _) (sq_pos_of_ne_zero h)

/-- C236 is false for the indicator of a car that goes straight with its wheels steered. -/
theorem C236_indicator_false (c : F1.Car) (f : TrackPoint) (q u : Nat → ℝ) (hv : q 5 = 0) (ho : q 6 = 0) (hu : 0 < u 0) :
    value (values (f1Track (F1.mirrorCar c) (F1.mirrorTrack f) (F1.mirrorInputs q) (F1.mirrorControls u)))
        "chassis.understeer_oversteer_indicator" = u 0 ∧
    value (values (f1Track c f q u)) "chassis.understeer_oversteer_indicator" = -u 0 := by
  rw [f1Track_mirror]
  rw [chassis_understeer_oversteer_indicator, chassis_understeer_oversteer_indicator]
  constructor
  · show understeer _ _ _ _ _ _ _ _ = _
    rw [hv, ho, neg_zero]
    exact (C94_false _ _ _ _ _ hu).2
  · show understeer _ _ _ (q 4) (q 5) (q 6) (u 0) (u 0) = _
    rw [hv, ho]
    exact (C94_false _ _ _ _ _ hu).1

/-- C236: in a symmetric car that goes straight on a straight track, equally loaded left and right, the tyres of the two
sides report the same, but for the sign of what points sideways, and the chassis reports no lateral force, no yaw
acceleration and no torque but that of pitch. -/
theorem C236_straight (c : F1.Car) (hc : F1.mirrorCar c = c) (f : TrackPoint) (hf : F1.mirrorTrack f = f) (q u : Nat → ℝ)
    (hq : F1.mirrorInputs q = q) (hu : F1.mirrorControls u = u) :
    let o := values (f1Track c f q u)
    Mirrored o o ∧ (vector o "chassis.force").2.1 = 0 ∧ value o "chassis.acceleration.y" = 0 ∧
    value o "chassis.acceleration.yaw" = 0 ∧ (vector o "chassis.torque").1 = 0 ∧ (vector o "chassis.torque").2.2 = 0 := by
  intro o
  have h : Mirrored o o := by
    have h := (C236_f1_partial c f q u).1
    rw [hc, hf, hq, hu] at h
    exact h
  have zero : ∀ x : ℝ, x = -x → x = 0 := fun x h => by linarith
  refine ⟨h, zero _ ?_, zero _ ?_, zero _ ?_, zero _ ?_, zero _ ?_⟩
  · exact congrArg (fun v : Vec3 => v.2.1) h.force
  · exact h.reversed _ (List.mem_of_getElem? (i := 0) rfl)
  · exact h.reversed _ (List.mem_of_getElem? (i := 1) rfl)
  · exact congrArg (fun v : Vec3 => v.1) h.torque
  · exact congrArg (fun v : Vec3 => v.2.2) h.torque

/-- C236: a right turn and the same turn to the left. -/
example (u : Nat → ℝ) :
    let q : Nat → ℝ := fun k => if k = 4 then 50 else if k = 6 then 1 else if k = 7 then -(1 / 10) else -(4 / 10)
    value (values (f1Track (F1.mirrorCar F1.exCar) (F1.mirrorTrack F1.exStraight) (F1.mirrorInputs q) (F1.mirrorControls u)))
        "front-axle.right-tire.lambda"
      = -value (values (f1Track F1.exCar F1.exStraight q u)) "front-axle.left-tire.lambda" :=
  (C236_f1_partial F1.exCar F1.exStraight _ u).1.tyreReversed .frontRight

example (u : Nat → ℝ) (q : Nat → ℝ) (h : q 6 = 0) :
    value (values (kartTrack Kart.cramer (Kart.mirrorKart Kart.exKart) (F1.mirrorTrack F1.exStraight) (Kart.mirrorInputs q)
        (Kart.mirrorControls u))) "chassis.acceleration.yaw"
      = -value (values (kartTrack Kart.cramer Kart.exKart F1.exStraight q u)) "chassis.acceleration.yaw" :=
  (C236_kart_partial Kart.cramer_solver Kart.exKart (by norm_num [Kart.exKart]) F1.exStraight q u
    (Kart.det_exKart _ h)).1.reversed _ (List.mem_of_getElem? (i := 1) rfl)

/-- C236: the car of the examples going straight at 50 m/s. -/
example : value (values (f1Track F1.exCar F1.exStraight (fun k => if k = 4 then 50 else 0) fun _ => 0))
    "chassis.acceleration.yaw" = 0 := by
  refine (C236_straight F1.exCar ?_ F1.exStraight ?_ _ _ ?_ ?_).2.2.2.1
  · norm_num [F1.mirrorCar, F1.exCar, F1.mirrorVec]
  · norm_num [F1.mirrorTrack, F1.exStraight, F1.mirrorVec]
  · funext k
    unfold F1.mirrorInputs
    split <;> simp
  · funext k
    unfold F1.mirrorControls
    split <;> simp

end Verif.Outputs
