import Verif.Spec.Outputs
import Verif.Lemmas.Chassis
import Verif.Lemmas.VehicleNames
import Mathlib.Data.List.Nodup

/-! # Lemmas about the outputs of a vehicle -/

set_option autoImplicit false

namespace Verif.Outputs

open Verif.Road Verif.Chassis

theorem absolute_eq (a : Attitude) (v : Vec3) : absolute a v = toWorld a v := rfl

/-! ### The tables -/

/-- All the names of outputs one after the other. -/
def rawNames : List String :=
  VehicleNames.chassisOutputs ++
    (VehicleNames.tyreOutputs "front-axle.left-tire" ++ VehicleNames.tyreOutputs "front-axle.right-tire") ++
    (VehicleNames.tyreOutputs "rear-axle.left-tire" ++ VehicleNames.tyreOutputs "rear-axle.right-tire")

theorem rawNames_nodup : rawNames.Nodup := by
  have h : (rawNames.map fun s => VehicleNames.code s.toList).Nodup := by decide +kernel
  exact List.Nodup.of_map _ h

theorem insertAll_append {m l : List String} (h : (m ++ l).Nodup) : VehicleNames.insertAll m l = m ++ l := by
  unfold VehicleNames.insertAll
  induction l generalizing m with
  | nil => simp
  | cons k l ih =>
    rw [List.foldl_cons, if_neg, ih]
    · simp
    · simpa using h
    · intro hk
      exact (List.nodup_append.1 h).2.2 k hk k (by simp) rfl

theorem insertValues_append {m l : List (String × ℝ)} (h : (m.map Prod.fst ++ l.map Prod.fst).Nodup) :
    insertValues m l = m ++ l := by
  unfold insertValues
  induction l generalizing m with
  | nil => simp
  | cons k l ih =>
    rw [List.foldl_cons, if_neg, ih]
    · simp
    · simpa using h
    · intro hk
      exact (List.nodup_append.1 h).2.2 k.1 hk k.1 (by simp) rfl

theorem outputNames_eq : VehicleNames.outputNames = rawNames := by
  have h := rawNames_nodup
  unfold rawNames at h
  have h1 := (List.nodup_append.1 (List.nodup_append.1 h).1).2.1
  have h2 := (List.nodup_append.1 h).2.1
  unfold VehicleNames.outputNames VehicleNames.axleOutputs
  have e1 : "front-axle" ++ ".left-tire" = "front-axle.left-tire" := rfl
  have e2 : "front-axle" ++ ".right-tire" = "front-axle.right-tire" := rfl
  have e3 : "rear-axle" ++ ".left-tire" = "rear-axle.left-tire" := rfl
  have e4 : "rear-axle" ++ ".right-tire" = "rear-axle.right-tire" := rfl
  rw [e1, e2, e3, e4, insertAll_append (m := []) (by simpa using (List.nodup_append.1 h1).1),
    insertAll_append (m := []) (by simpa using (List.nodup_append.1 h2).1), List.nil_append, List.nil_append,
    insertAll_append h1, insertAll_append h2, insertAll_append (List.nodup_append.1 h).1, insertAll_append h]
  rfl

theorem keys_tyre (n : String) (a : Attitude) (t : TyreState) :
    (tyreValues n a t).map Prod.fst = VehicleNames.tyreOutputs n := rfl

theorem keys_chassis (c : ChassisState) : (chassisValues c).map Prod.fst = VehicleNames.chassisOutputs := rfl

theorem insert_five {A B C D E : List (String × ℝ)} {a b c d e : List String} (hA : A.map Prod.fst = a)
    (hB : B.map Prod.fst = b) (hC : C.map Prod.fst = c) (hD : D.map Prod.fst = d) (hE : E.map Prod.fst = e)
    (h : (a ++ (b ++ c) ++ (d ++ e)).Nodup) :
    insertValues (insertValues A (insertValues (insertValues [] B) C)) (insertValues (insertValues [] D) E)
      = A ++ (B ++ C) ++ (D ++ E) := by
  subst hA hB hC hD hE
  have h1 := (List.nodup_append.1 (List.nodup_append.1 h).1).2.1
  have h2 := (List.nodup_append.1 h).2.1
  rw [insertValues_append (m := []) (by simpa using (List.nodup_append.1 h1).1),
    insertValues_append (m := []) (by simpa using (List.nodup_append.1 h2).1), List.nil_append, List.nil_append,
    insertValues_append h1, insertValues_append h2,
    insertValues_append (m := A) (by simpa only [List.map_append] using (List.nodup_append.1 h).1),
    insertValues_append (m := A ++ (B ++ C)) (by simpa only [List.map_append] using h)]

/-- The table is the concatenation of the tables of the parts. -/
theorem values_eq (s : State) : values s = chassisValues s.chassis ++
    (tyreValues "front-axle.left-tire" s.chassis.att s.fl ++ tyreValues "front-axle.right-tire" s.chassis.att s.fr) ++
    (tyreValues "rear-axle.left-tire" s.chassis.att s.rl ++ tyreValues "rear-axle.right-tire" s.chassis.att s.rr) := by
  have e1 : "front-axle" ++ ".left-tire" = "front-axle.left-tire" := rfl
  have e2 : "front-axle" ++ ".right-tire" = "front-axle.right-tire" := rfl
  have e3 : "rear-axle" ++ ".left-tire" = "rear-axle.left-tire" := rfl
  have e4 : "rear-axle" ++ ".right-tire" = "rear-axle.right-tire" := rfl
  unfold values axleValues
  rw [e1, e2, e3, e4]
  exact insert_five (keys_chassis _) (keys_tyre _ _ _) (keys_tyre _ _ _) (keys_tyre _ _ _) (keys_tyre _ _ _)
    rawNames_nodup

theorem keys_values (s : State) : (values s).map Prod.fst = VehicleNames.outputNames := by
  rw [values_eq, outputNames_eq]
  simp only [List.map_append, keys_tyre, keys_chassis]
  rfl

theorem find_mem {m : List (String × ℝ)} (h : (m.map Prod.fst).Nodup) {k : String} {x : ℝ} (hm : (k, x) ∈ m) :
    find m k.toList = .ok x := by
  unfold find
  induction m with
  | nil => simp at hm
  | cons e m ih =>
    rw [List.find?_cons]
    by_cases he : e.1.toList = k.toList
    · simp only [he, decide_true]
      rcases List.mem_cons.1 hm with rfl | hm
      · rfl
      · exfalso
        rw [List.map_cons, List.nodup_cons] at h
        have : e.1 = k := String.toList_inj.1 he
        exact h.1 (this ▸ List.mem_map.2 ⟨_, hm, rfl⟩)
    · simp only [he, decide_false]
      rcases List.mem_cons.1 hm with rfl | hm
      · exact absurd rfl he
      · exact ih (List.nodup_cons.1 h).2 hm

theorem find_not_mem {m : List (String × ℝ)} {k : Name} (h : k ∉ (m.map Prod.fst).map String.toList) :
    find m k = .throw := by
  unfold find
  rw [List.find?_eq_none.2]
  intro e he
  simp only [decide_eq_true_eq]
  rintro rfl
  exact h (List.mem_map.2 ⟨_, List.mem_map.2 ⟨_, he, rfl⟩, rfl⟩)

theorem values_nodup (s : State) : ((values s).map Prod.fst).Nodup := by
  rw [keys_values, outputNames_eq]; exact rawNames_nodup

theorem value_mem {s : State} {k : String} {x : ℝ} (hm : (k, x) ∈ values s) : value (values s) k = x := by
  unfold value
  rw [find_mem (values_nodup s) hm]

/-- The tyre of the state at a corner. -/
def State.tyre (s : State) : Corner → TyreState
  | .frontLeft => s.fl
  | .frontRight => s.fr
  | .rearLeft => s.rl
  | .rearRight => s.rr

theorem value_chassis {s : State} {k : String} {x : ℝ} (hm : (k, x) ∈ chassisValues s.chassis) :
    value (values s) k = x := by
  refine value_mem ?_
  rw [values_eq]
  simp only [List.mem_append]
  exact .inl (.inl hm)

theorem value_tyre {s : State} {i : Corner} {k : String} {x : ℝ}
    (hm : (k, x) ∈ tyreValues i.name s.chassis.att (s.tyre i)) : value (values s) k = x := by
  refine value_mem ?_
  rw [values_eq]
  simp only [List.mem_append]
  cases i
  · exact .inl (.inr (.inl hm))
  · exact .inl (.inr (.inr hm))
  · exact .inr (.inl hm)
  · exact .inr (.inr hm)

theorem app_assoc (n : String) : n ++ ".position" ++ ".x" = n ++ ".position.x" ∧ n ++ ".position" ++ ".y" = n ++ ".position.y" ∧
    n ++ ".position" ++ ".z" = n ++ ".position.z" ∧
    n ++ ".velocity" ++ ".x" = n ++ ".velocity.x" ∧ n ++ ".velocity" ++ ".y" = n ++ ".velocity.y" ∧
    n ++ ".velocity" ++ ".z" = n ++ ".velocity.z" ∧
    n ++ ".velocity.car_frame" ++ ".x" = n ++ ".velocity.car_frame.x" ∧
    n ++ ".velocity.car_frame" ++ ".y" = n ++ ".velocity.car_frame.y" ∧
    n ++ ".velocity.car_frame" ++ ".z" = n ++ ".velocity.car_frame.z" ∧
    n ++ ".force" ++ ".x" = n ++ ".force.x" ∧ n ++ ".force" ++ ".y" = n ++ ".force.y" ∧
    n ++ ".force" ++ ".z" = n ++ ".force.z" ∧
    n ++ ".force.inertial" ++ ".x" = n ++ ".force.inertial.x" ∧
    n ++ ".force.inertial" ++ ".y" = n ++ ".force.inertial.y" ∧
    n ++ ".force.inertial" ++ ".z" = n ++ ".force.inertial.z" := by
  simp only [String.append_assoc]
  exact ⟨rfl, rfl, rfl, rfl, rfl, rfl, rfl, rfl, rfl, rfl, rfl, rfl, rfl, rfl, rfl⟩

section Tyre
variable (s : State) (i : Corner)

theorem tyre_position : vector (values s) (i.name ++ ".position") = (s.tyre i).position := by
  obtain ⟨h1, h2, h3, -⟩ := app_assoc i.name
  have ex : value (values s) (i.name ++ ".position.x") = (s.tyre i).position.1 :=
    value_tyre (i := i) (List.mem_of_getElem? (i := 0) rfl)
  have ey : value (values s) (i.name ++ ".position.y") = (s.tyre i).position.2.1 :=
    value_tyre (i := i) (List.mem_of_getElem? (i := 1) rfl)
  have ez : value (values s) (i.name ++ ".position.z") = (s.tyre i).position.2.2 :=
    value_tyre (i := i) (List.mem_of_getElem? (i := 2) rfl)
  unfold vector
  rw [h1, h2, h3, ex, ey, ez]

theorem tyre_velocity : vector (values s) (i.name ++ ".velocity") = (s.tyre i).velocity := by
  obtain ⟨-, -, -, h1, h2, h3, -⟩ := app_assoc i.name
  have ex : value (values s) (i.name ++ ".velocity.x") = (s.tyre i).velocity.1 :=
    value_tyre (i := i) (List.mem_of_getElem? (i := 3) rfl)
  have ey : value (values s) (i.name ++ ".velocity.y") = (s.tyre i).velocity.2.1 :=
    value_tyre (i := i) (List.mem_of_getElem? (i := 4) rfl)
  have ez : value (values s) (i.name ++ ".velocity.z") = (s.tyre i).velocity.2.2 :=
    value_tyre (i := i) (List.mem_of_getElem? (i := 5) rfl)
  unfold vector
  rw [h1, h2, h3, ex, ey, ez]

theorem tyre_carFrame : vector (values s) (i.name ++ ".velocity.car_frame")
    = rotZ (s.tyre i).delta (s.tyre i).velocity := by
  obtain ⟨-, -, -, -, -, -, h1, h2, h3, -⟩ := app_assoc i.name
  have ex : value (values s) (i.name ++ ".velocity.car_frame.x") = (rotZ (s.tyre i).delta (s.tyre i).velocity).1 :=
    value_tyre (i := i) (List.mem_of_getElem? (i := 6) rfl)
  have ey : value (values s) (i.name ++ ".velocity.car_frame.y") = (rotZ (s.tyre i).delta (s.tyre i).velocity).2.1 :=
    value_tyre (i := i) (List.mem_of_getElem? (i := 7) rfl)
  have ez : value (values s) (i.name ++ ".velocity.car_frame.z") = (rotZ (s.tyre i).delta (s.tyre i).velocity).2.2 :=
    value_tyre (i := i) (List.mem_of_getElem? (i := 8) rfl)
  unfold vector
  rw [h1, h2, h3, ex, ey, ez]

theorem tyre_force : vector (values s) (i.name ++ ".force") = (s.tyre i).force := by
  obtain ⟨-, -, -, -, -, -, -, -, -, h1, h2, h3, -⟩ := app_assoc i.name
  have ex : value (values s) (i.name ++ ".force.x") = (s.tyre i).force.1 :=
    value_tyre (i := i) (List.mem_of_getElem? (i := 12) rfl)
  have ey : value (values s) (i.name ++ ".force.y") = (s.tyre i).force.2.1 :=
    value_tyre (i := i) (List.mem_of_getElem? (i := 13) rfl)
  have ez : value (values s) (i.name ++ ".force.z") = (s.tyre i).force.2.2 :=
    value_tyre (i := i) (List.mem_of_getElem? (i := 14) rfl)
  unfold vector
  rw [h1, h2, h3, ex, ey, ez]

theorem tyre_inertial : vector (values s) (i.name ++ ".force.inertial")
    = toWorld s.chassis.att (rotZ (s.tyre i).delta (s.tyre i).force) := by
  obtain ⟨-, -, -, -, -, -, -, -, -, -, -, -, h1, h2, h3⟩ := app_assoc i.name
  have ex : value (values s) (i.name ++ ".force.inertial.x") = (absolute s.chassis.att (rotZ (s.tyre i).delta (s.tyre i).force)).1 :=
    value_tyre (i := i) (List.mem_of_getElem? (i := 15) rfl)
  have ey : value (values s) (i.name ++ ".force.inertial.y") = (absolute s.chassis.att (rotZ (s.tyre i).delta (s.tyre i).force)).2.1 :=
    value_tyre (i := i) (List.mem_of_getElem? (i := 16) rfl)
  have ez : value (values s) (i.name ++ ".force.inertial.z") = (absolute s.chassis.att (rotZ (s.tyre i).delta (s.tyre i).force)).2.2 :=
    value_tyre (i := i) (List.mem_of_getElem? (i := 17) rfl)
  unfold vector
  rw [h1, h2, h3, ex, ey, ez]
  rfl

theorem tyre_lambda : value (values s) (i.name ++ ".lambda") = (s.tyre i).lambda := 
  value_tyre (i := i) (List.mem_of_getElem? (i := 9) rfl)

theorem tyre_kappa : value (values s) (i.name ++ ".true_kappa") = (s.tyre i).kappa := 
  value_tyre (i := i) (List.mem_of_getElem? (i := 10) rfl)

theorem tyre_omega : value (values s) (i.name ++ ".omega") = (s.tyre i).omega := 
  value_tyre (i := i) (List.mem_of_getElem? (i := 18) rfl)

theorem tyre_dissipation : value (values s) (i.name ++ ".dissipation") = (s.tyre i).dissipation :=
  
  value_tyre (i := i) (List.mem_of_getElem? (i := 11) rfl)

end Tyre

section Chassis
variable (s : State)

/-- The aerodynamic forces of the chassis. -/
noncomputable def ChassisState.wind (c : ChassisState) : AeroForces := aeroForces c.aero c.att (c.u, c.v, c.groundVz)

theorem chassis_acceleration_x : value (values s) "chassis.acceleration.x" = longitudinalAcceleration s.chassis.mass s.chassis.u s.chassis.v s.chassis.force :=
  value_chassis (List.mem_of_getElem? (i := 0) rfl)

theorem chassis_acceleration_y : value (values s) "chassis.acceleration.y" = lateralAcceleration s.chassis.mass s.chassis.u s.chassis.v s.chassis.force :=
  value_chassis (List.mem_of_getElem? (i := 1) rfl)

theorem chassis_force_x : value (values s) "chassis.force.x" = s.chassis.force.1 :=
  value_chassis (List.mem_of_getElem? (i := 2) rfl)

theorem chassis_force_y : value (values s) "chassis.force.y" = s.chassis.force.2.1 :=
  value_chassis (List.mem_of_getElem? (i := 3) rfl)

theorem chassis_force_z : value (values s) "chassis.force.z" = s.chassis.force.2.2 :=
  value_chassis (List.mem_of_getElem? (i := 4) rfl)

theorem chassis_torque_x : value (values s) "chassis.torque.x" = s.chassis.torque.1 :=
  value_chassis (List.mem_of_getElem? (i := 5) rfl)

theorem chassis_torque_y : value (values s) "chassis.torque.y" = s.chassis.torque.2.1 :=
  value_chassis (List.mem_of_getElem? (i := 6) rfl)

theorem chassis_torque_z : value (values s) "chassis.torque.z" = s.chassis.torque.2.2 :=
  value_chassis (List.mem_of_getElem? (i := 7) rfl)

theorem chassis_acceleration_yaw : value (values s) "chassis.acceleration.yaw" = s.chassis.yawRateDot :=
  value_chassis (List.mem_of_getElem? (i := 8) rfl)

theorem chassis_position_x : value (values s) "chassis.position.x" = s.chassis.ground.1 :=
  value_chassis (List.mem_of_getElem? (i := 9) rfl)

theorem chassis_position_y : value (values s) "chassis.position.y" = s.chassis.ground.2.1 :=
  value_chassis (List.mem_of_getElem? (i := 10) rfl)

theorem chassis_attitude_yaw : value (values s) "chassis.attitude.yaw" = s.chassis.att.yaw + s.chassis.att.heading :=
  value_chassis (List.mem_of_getElem? (i := 11) rfl)

theorem chassis_understeer_oversteer_indicator : value (values s) "chassis.understeer_oversteer_indicator" = s.chassis.indicator :=
  value_chassis (List.mem_of_getElem? (i := 12) rfl)

theorem chassis_aerodynamics_cd : value (values s) "chassis.aerodynamics.cd" = s.chassis.aero.cd :=
  value_chassis (List.mem_of_getElem? (i := 13) rfl)

theorem chassis_aerodynamics_lift : value (values s) "chassis.aerodynamics.lift" = s.chassis.wind.lift.2.2 :=
  value_chassis (List.mem_of_getElem? (i := 14) rfl)

theorem chassis_aerodynamics_drag : value (values s) "chassis.aerodynamics.drag" = √(dot s.chassis.wind.drag s.chassis.wind.drag) :=
  value_chassis (List.mem_of_getElem? (i := 15) rfl)

theorem chassis_aerodynamics_drag_x : value (values s) "chassis.aerodynamics.drag.x" = s.chassis.wind.drag.1 :=
  value_chassis (List.mem_of_getElem? (i := 16) rfl)

theorem chassis_aerodynamics_drag_y : value (values s) "chassis.aerodynamics.drag.y" = s.chassis.wind.drag.2.1 :=
  value_chassis (List.mem_of_getElem? (i := 17) rfl)

theorem chassis_aerodynamics_wind_velocity_body_x : value (values s) "chassis.aerodynamics.wind_velocity_body.x" = s.chassis.wind.windBody.1 :=
  value_chassis (List.mem_of_getElem? (i := 18) rfl)

theorem chassis_aerodynamics_wind_velocity_body_y : value (values s) "chassis.aerodynamics.wind_velocity_body.y" = s.chassis.wind.windBody.2.1 :=
  value_chassis (List.mem_of_getElem? (i := 19) rfl)

theorem chassis_aerodynamics_aerodynamic_velocity_x : value (values s) "chassis.aerodynamics.aerodynamic_velocity.x" = s.chassis.wind.velocity.1 :=
  value_chassis (List.mem_of_getElem? (i := 20) rfl)

theorem chassis_aerodynamics_aerodynamic_velocity_y : value (values s) "chassis.aerodynamics.aerodynamic_velocity.y" = s.chassis.wind.velocity.2.1 :=
  value_chassis (List.mem_of_getElem? (i := 21) rfl)

theorem chassis_force : vector (values s) "chassis.force" = s.chassis.force := by
  have e1 : "chassis.force" ++ ".x" = "chassis.force.x" := rfl
  have e2 : "chassis.force" ++ ".y" = "chassis.force.y" := rfl
  have e3 : "chassis.force" ++ ".z" = "chassis.force.z" := rfl
  unfold vector
  rw [e1, e2, e3, chassis_force_x, chassis_force_y, chassis_force_z]

end Chassis

end Verif.Outputs
