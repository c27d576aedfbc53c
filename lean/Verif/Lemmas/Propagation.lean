import Verif.Spec.Propagation
import Verif.Lemmas.LapVehicles
import Verif.Lemmas.Registry

/-! Lemmas for C212..: the options of a step, the laws of motion from the rows of the equations, tables. -/

set_option autoImplicit false

namespace Verif.Propagation

open Verif.LapVehicles Verif.LapOptions Verif.Road Verif.Chassis

/-! ### Options -/

theorem child_some {doc : Node} {name : String} {e : Node} : child? doc name = some e ↔ FirstChild doc name e := by
  unfold child? FirstChild
  rw [List.find?_eq_some_iff_append]
  constructor
  · rintro ⟨h, as, bs, h1, h2⟩
    exact ⟨as, bs, h1, by simpa using h, fun c hc => by simpa using h2 c hc⟩
  · rintro ⟨as, bs, h1, h, h2⟩
    exact ⟨by simpa using h, as, bs, h1, fun c hc => by simpa using h2 c hc⟩

theorem child_none {doc : Node} {name : String} : child? doc name = none ↔ ∀ c ∈ doc.children, c.name ≠ name := by
  unfold child?
  simp

theorem find_child {doc : Node} (h : doc.name = "options") (name : String) : find? doc [name] = child? doc name := by
  simp only [find?, if_pos h, descend]
  cases child? doc name <;> rfl

theorem find_other {doc : Node} (h : doc.name ≠ "options") (path : List String) : find? doc path = none := if_neg h

theorem setIf_ok {x : Texts ℝ} {doc : Node} (h : doc.name = "options") {name : String} {d v : ℝ} :
    setIf x doc name d = .ok v ↔ Chosen x doc name d v := by
  unfold setIf Chosen
  rw [find_child h]
  rcases hc : child? doc name with _ | e
  · constructor
    · intro h'
      exact .inr ⟨child_none.1 hc, (Res.ok.inj h').symm⟩
    · rintro (⟨e, he, -⟩ | ⟨-, rfl⟩)
      · rw [child_some.2 he] at hc; cases hc
      · rfl
  · constructor
    · intro h'
      exact .inl ⟨e, child_some.1 hc, h'⟩
    · rintro (⟨e', he, h'⟩ | ⟨h', -⟩)
      · rw [child_some.2 he] at hc
        cases hc
        exact h'
      · rw [child_none.2 h'] at hc; cases hc

theorem setIf_other {x : Texts ℝ} {doc : Node} (h : doc.name ≠ "options") (name : String) (d : ℝ) :
    setIf x doc name d = .ok d := by
  unfold setIf
  rw [find_other h]

/-! ### The F1 car -/

/-- A level straight road. -/
def level : TrackPoint := ⟨(0, 0, 0), 0, 0, 0, 0, 0, 0⟩

theorem level_flat : F1.Flat level := ⟨rfl, rfl, rfl, rfl⟩

theorem planeOut_eq (c : F1.Car) (q u : Nat → ℝ) : planeOut c q u = f1Out c level q u := by
  have h1 : (F1.roadCurvilinear level (F1.setState c q u)).att = (F1.roadCartesian (F1.setState c q u)).att := rfl
  have h2 : (F1.roadCurvilinear level (F1.setState c q u)).omega = (F1.roadCartesian (F1.setState c q u)).omega := by
    rw [(road_flat level_flat c q u).1]
    have e6 : (F1.setState c q u).omega = q 6 := rfl
    apply vec_ext <;> simp [F1.roadCartesian, omegaBody, rotZ, e6]
  have h3 : (F1.roadCurvilinear level (F1.setState c q u)).groundVz = (F1.roadCartesian (F1.setState c q u)).groundVz :=
    (road_flat level_flat c q u).2.1
  unfold planeOut f1Out F1.carUpdate
  rw [h1, h2, h3]

/-- The rows of the equations of the F1 car on a plane. -/
theorem plane_rows (car : ℝ → F1.Car) (q : Nat → ℝ) (u : List ℝ) (s : ℝ) (hg : (car s).chassis.g0 ≠ 0)
    (hm : (car s).chassis.mass ≠ 0) :
    let c := car s
    let o := planeOut c q (arrayOf u)
    let e := (f1OnPlane car).eval q u s
    (e.1 4 = q 4 ∧ e.2 4 = o.chassis.force.1 / c.chassis.mass + q 5 * q 6) ∧
    (e.1 5 = q 5 ∧ e.2 5 = o.chassis.force.2.1 / c.chassis.mass - q 4 * q 6) ∧
    (e.1 6 = q 6 ∧ e.2 6 = o.chassis.torque.2.2 / c.chassis.I.2.2.2.2) ∧
    (e.1 7 = 0 ∧ e.2 7 = o.chassis.force.2.2 / (c.chassis.g0 * c.chassis.mass)) ∧
    (e.1 8 = 0 ∧ e.2 8 = o.chassis.torque.1 / (c.chassis.g0 * c.chassis.mass)) ∧
    (e.1 9 = 0 ∧ e.2 9 = o.chassis.torque.2.1 / (c.chassis.g0 * c.chassis.mass)) ∧
    (e.1 10 = 0 ∧ e.2 10 = excess c q) ∧
    (e.1 11 = q 11 ∧ e.2 11 = q 4 * Real.cos (q 13) - q 5 * Real.sin (q 13)) ∧
    (e.1 12 = q 12 ∧ e.2 12 = q 4 * Real.sin (q 13) + q 5 * Real.cos (q 13)) ∧
    (e.1 13 = q 13 ∧ e.2 13 = q 6) := by
  intro c o e
  obtain ⟨g1, g2, g3, g4, g5⟩ := f1_chassis level_flat c q (arrayOf u)
  obtain ⟨-, -, a3, a4, -, -, -⟩ := f1_any level c q (arrayOf u)
  have hk : curvature level = (0, 0, 0) := by
    apply vec_ext <;> simp [curvature, level]
  have ho : o = f1Out c level q (arrayOf u) := planeOut_eq c q (arrayOf u)
  rw [← ho] at g1 g2 g3 g4 g5 a3 a4
  have hr : rotation c level q = (0, 0, c.chassis.I.2.2.2.2 * q 6) := by
    apply vec_ext <;> simp [rotation, turning, hk]
  rw [hr] at a3 a4
  refine ⟨⟨?_, ?_⟩, ⟨?_, ?_⟩, ⟨rfl, ?_⟩, ⟨?_, ?_⟩, ⟨?_, ?_⟩, ⟨?_, ?_⟩, ⟨rfl, ?_⟩, ⟨rfl, ?_⟩, ⟨rfl, ?_⟩, ⟨rfl, ?_⟩⟩
  · exact congrArg Prod.fst g1
  · show o.chassis.comVelocityDot.1 * 1 = _
    rw [g2, mul_one]
  · exact congrArg (fun x => x.2.1) g1
  · show o.chassis.comVelocityDot.2.1 * 1 = _
    rw [g2, mul_one]
  · show o.chassis.yawRateDot * 1 = _
    rw [g3, mul_one]
  · show o.chassis.comVelocity.2.2 / _ = _
    rw [g1, zero_div]
  · show o.chassis.comVelocityDot.2.2 / c.chassis.g0 * 1 = _
    rw [g2, mul_one, div_div, mul_comm]
  · show o.chassis.rollMomentum / _ = _
    rw [a3, zero_div]
  · show o.chassis.rollMomentumDot / _ * 1 = _
    rw [g4, mul_one]
  · show o.chassis.pitchMomentum / _ = _
    rw [a4, zero_div]
  · show o.chassis.pitchMomentumDot / _ * 1 = _
    rw [g5, mul_one]
  · have h : o.chassis.rollBalance = excess c q * (c.chassis.g0 * c.chassis.mass) := by
      rw [ho]; exact f1_share c level q (arrayOf u)
    show o.chassis.rollBalance / (c.chassis.g0 * c.chassis.mass) * 1 = _
    rw [h, mul_div_cancel_right₀ _ (mul_ne_zero hg hm), mul_one]
  · exact mul_one _
  · exact mul_one _
  · exact mul_one _

theorem plane_wheel_rows (car : ℝ → F1.Car) (q : Nat → ℝ) (u : List ℝ) (s : ℝ) (k : Kart.Corner)
    (w : F1.WheelOut × ℝ × ℝ) (hw : f1Wheel (car s) (planeOut (car s) q (arrayOf u)) k = w) (hI : 1 / 10 ^ 10 ≤ w.2.2) :
    ((f1OnPlane car).eval q u s).1 (cornerIndex k) = (spin w).1 ∧
    ((f1OnPlane car).eval q u s).2 (cornerIndex k) = (spin w).2 := by
  subst hw
  have hs (p : F1.AxleP) (m : ℝ) (h : 1 / 10 ^ 10 ≤ p.I) : F1.scaling p m = 1 := if_neg (not_lt.2 h)
  cases k
  all_goals
    refine ⟨?_, ?_⟩
    · first
      | (show _ * _ * F1.scaling (car s).front _ = _; rw [hs _ _ hI, mul_one, mul_comm]; rfl)
      | (show _ * _ * F1.scaling (car s).rear _ = _; rw [hs _ _ hI, mul_one, mul_comm]; rfl)
    · first
      | (show _ * F1.scaling (car s).front _ * 1 = _; rw [hs _ _ hI, mul_one, mul_one]
         simp only [spin, f1Wheel, F1.axleUpdate, planeOut, F1.carUpdate, Tyre.wheelTorque]; ring)
      | (show _ * F1.scaling (car s).rear _ * 1 = _; rw [hs _ _ hI, mul_one, mul_one]
         simp only [spin, f1Wheel, F1.axleUpdate, planeOut, F1.carUpdate, Tyre.wheelTorque]; ring)

section
variable {sigma L tol : ℝ}

theorem f1_onPlane (car : ℝ → F1.Car) (q q' : Nat → ℝ) (u u' : List ℝ) (s s' : ℝ)
    (hg : ∀ x, (car x).chassis.g0 ≠ 0) (hm : ∀ x, (car x).chassis.mass ≠ 0)
    (h : ∀ k, k < 14 → Changes sigma L tol (((f1OnPlane car).eval q u s).1 k) (((f1OnPlane car).eval q' u' s').1 k)
      (((f1OnPlane car).eval q u s).2 k) (((f1OnPlane car).eval q' u' s').2 k)) :
    F1OnPlane sigma L tol (car s) q (arrayOf u) (car s') q' (arrayOf u') := by
  obtain ⟨a4, a5, a6, a7, a8, a9, a10, a11, a12, a13⟩ := plane_rows car q u s (hg s) (hm s)
  obtain ⟨b4, b5, b6, b7, b8, b9, b10, b11, b12, b13⟩ := plane_rows car q' u' s' (hg s') (hm s')
  have go (k : Nat) (hk : k < 14) {x x' y y' : ℝ}
      (h1 : ((f1OnPlane car).eval q u s).1 k = x ∧ ((f1OnPlane car).eval q u s).2 k = y)
      (h2 : ((f1OnPlane car).eval q' u' s').1 k = x' ∧ ((f1OnPlane car).eval q' u' s').2 k = y') :
      Changes sigma L tol x x' y y' := by
    have := h k hk
    rw [← h1.1, ← h1.2, ← h2.1, ← h2.2]
    exact this
  exact ⟨go 4 (by norm_num) a4 b4, go 5 (by norm_num) a5 b5, go 6 (by norm_num) a6 b6, go 7 (by norm_num) a7 b7,
    go 8 (by norm_num) a8 b8, go 9 (by norm_num) a9 b9, go 10 (by norm_num) a10 b10, go 11 (by norm_num) a11 b11,
    go 12 (by norm_num) a12 b12, go 13 (by norm_num) a13 b13, fun k hI hI' =>
      go (cornerIndex k) (by cases k <;> simp [cornerIndex]) (plane_wheel_rows car q u s k _ rfl hI)
        (plane_wheel_rows car q' u' s' k _ rfl hI')⟩

theorem f1_climb (car : ℝ → F1.Car) (power : ℝ) (t : Circuit) (q q' : Nat → ℝ) (u u' : List ℝ) (s s' : ℝ)
    (hg : ∀ x, (car x).chassis.g0 ≠ 0) (hm : ∀ x, (car x).chassis.mass ≠ 0)
    (hp : roadPace (t.at_ s) q ≠ 0) (hp' : roadPace (t.at_ s') q' ≠ 0)
    (h : ∀ k, k < 14 → Changes sigma L tol (((f1OnTrack car power t).eval q u s).1 k)
      (((f1OnTrack car power t).eval q' u' s').1 k) (((f1OnTrack car power t).eval q u s).2 k)
      (((f1OnTrack car power t).eval q' u' s').2 k)) :
    F1Climb sigma L tol (car s) (t.at_ s) q (arrayOf u) (car s') (t.at_ s') q' (arrayOf u') ∧
    Changes sigma L tol (q 11) (q' 11) (roadPace (t.at_ s) q) (roadPace (t.at_ s') q') := by
  obtain ⟨a4, a5, a7, a8, a9, a6, a10, a12, a13⟩ := f1_any_rows car power t q u s (hg s) (hm s) hp
  obtain ⟨b4, b5, b7, b8, b9, b6, b10, b12, b13⟩ := f1_any_rows car power t q' u' s' (hg s') (hm s') hp'
  have go (k : Nat) (hk : k < 14) {x x' y y' : ℝ}
      (h1 : (f1Eval car power t q u s).states k = x ∧ (f1Eval car power t q u s).dstates k = y)
      (h2 : (f1Eval car power t q' u' s').states k = x' ∧ (f1Eval car power t q' u' s').dstates k = y') :
      Changes sigma L tol x x' y y' := by
    have := h k hk
    rw [← h1.1, ← h1.2, ← h2.1, ← h2.2]
    exact this
  exact ⟨⟨go 4 (by norm_num) a4 b4, go 5 (by norm_num) a5 b5, go 7 (by norm_num) a7 b7, go 8 (by norm_num) a8 b8,
    go 9 (by norm_num) a9 b9, go 6 (by norm_num) a6 b6, go 10 (by norm_num) a10 b10, go 12 (by norm_num) a12 b12,
    go 13 (by norm_num) a13 b13, fun k hI hI' =>
      go (cornerIndex k) (by cases k <;> simp [cornerIndex]) (f1_wheel_rows car power t q u s k _ rfl hI)
        (f1_wheel_rows car power t q' u' s' k _ rfl hI')⟩,
    go 11 (by norm_num) ⟨rfl, f1_time car power t q u s⟩ ⟨rfl, f1_time car power t q' u' s'⟩⟩

/-! ### The kart -/

variable (solve : Vec3 × Vec3 × Vec3 → Vec3 → Vec3)

theorem kart_element (kart : ℝ → Kart.Vehicle) (t : Circuit) (q q' : Nat → ℝ) (u u' : List ℝ) (s s' : ℝ)
    (hf : F1.Flat (t.at_ s)) (hf' : F1.Flat (t.at_ s')) (hp : kartPace (t.at_ s) q ≠ 0) (hp' : kartPace (t.at_ s') q' ≠ 0)
    (h : ∀ k, k < 13 → Changes sigma L tol (((kartOnTrack solve kart t).eval q u s).1 k)
      (((kartOnTrack solve kart t).eval q' u' s').1 k) (((kartOnTrack solve kart t).eval q u s).2 k)
      (((kartOnTrack solve kart t).eval q' u' s').2 k)) :
    KartElement solve sigma L tol (kart s) (t.at_ s) q (arrayOf u) (kart s') (t.at_ s') q' (arrayOf u') ∧
    Changes sigma L tol (q 10) (q' 10) (kartPace (t.at_ s) q) (kartPace (t.at_ s') q') := by
  obtain ⟨a, a0, a1, a2, a3, a4, a7, a8, a9, a10, a11, a12⟩ := kart_rows solve kart t q u s hf hp
  obtain ⟨b, b0, b1, b2, b3, b4, b7, b8, b9, b10, b11, b12⟩ := kart_rows solve kart t q' u' s' hf' hp'
  have go (k : Nat) (hk : k < 13) {y y' : ℝ} (h1 : (kartEval solve kart t q u s).dstates k = y)
      (h2 : (kartEval solve kart t q' u' s').dstates k = y') : Changes sigma L tol (q k) (q' k) y y' := by
    have := h k hk
    rw [← h1, ← h2, ← a k hk, ← b k hk]
    exact this
  exact ⟨⟨go 0 (by norm_num) a0 b0, go 1 (by norm_num) a1 b1, go 2 (by norm_num) a2 b2, go 7 (by norm_num) a7 b7,
    fun k hk => go (4 + k) (by omega) (a4 k hk) (b4 k hk), go 11 (by norm_num) a11 b11, go 12 (by norm_num) a12 b12,
    go 8 (by norm_num) a8 b8, go 9 (by norm_num) a9 b9, go 3 (by norm_num) a3 b3⟩, go 10 (by norm_num) a10 b10⟩

/-- The rows of the equations of the kart on a plane. -/
theorem kart_plane_rows (kart : ℝ → Kart.Vehicle) (q : Nat → ℝ) (u : List ℝ) (s : ℝ) :
    let c := kart s
    let m := Kart.setState q (arrayOf u)
    let F := planeForce c q (arrayOf u)
    let A := Kart.angularAcceleration solve c m (q 12)
    let e := (kartOnPlane solve kart).eval q u s
    (∀ k, k < 13 → e.1 k = q k) ∧
    e.2 0 = axleTorque c m / c.IAxle ∧
    e.2 1 = F.1 / c.mass + q 2 * q 3 ∧ e.2 2 = F.2.1 / c.mass - q 1 * q 3 ∧
    e.2 3 = A.2.2 ∧ (∀ k, k < 3 → e.2 (4 + k) = q (7 + k)) ∧
    e.2 7 = F.2.2 / c.mass ∧ e.2 8 = A.1 ∧ e.2 9 = A.2.1 ∧
    e.2 10 = q 1 * Real.cos (q 12) - q 2 * Real.sin (q 12) ∧
    e.2 11 = q 1 * Real.sin (q 12) + q 2 * Real.cos (q 12) ∧ e.2 12 = q 3 := by
  intro c m F A e
  have hF : Kart.totalForce c m (q 12) = F := Kart.totalForce_applied _ _ _
  have hv : Kart.dvdt c m (q 12) =
      (F.1 / c.mass + q 2 * q 3, F.2.1 / c.mass - q 1 * q 3, F.2.2 / c.mass) := by
    have e1 : m.u = q 1 := rfl
    have e2 : m.v = q 2 := rfl
    have e3 : m.omega = q 3 := rfl
    unfold Kart.dvdt
    rw [hF]
    apply vec_ext <;> simp [Kart.newtonLhs, cross, e1, e2, e3] <;> ring
  refine ⟨fun k hk => ?_, ?_, ?_, ?_, ?_, fun k hk => ?_, ?_, ?_, ?_, ?_, ?_, ?_⟩
  · interval_cases k <;> rfl
  · show Kart.axleAcceleration c m * 1 = _
    rw [mul_one]
    simp only [axleTorque, Kart.axleAcceleration, Tyre.wheelTorque]
    ring
  · show (Kart.dvdt c m (q 12)).1 * 1 = _
    rw [hv, mul_one]
  · show (Kart.dvdt c m (q 12)).2.1 * 1 = _
    rw [hv, mul_one]
  · exact mul_one A.2.2
  · interval_cases k <;> exact mul_one _
  · show (Kart.dvdt c m (q 12)).2.2 * 1 = _
    rw [hv, mul_one]
  · exact mul_one A.1
  · exact mul_one A.2.1
  · exact mul_one _
  · exact mul_one _
  · exact mul_one _

theorem kart_onPlane (kart : ℝ → Kart.Vehicle) (q q' : Nat → ℝ) (u u' : List ℝ) (s s' : ℝ)
    (h : ∀ k, k < 13 → Changes sigma L tol (((kartOnPlane solve kart).eval q u s).1 k)
      (((kartOnPlane solve kart).eval q' u' s').1 k) (((kartOnPlane solve kart).eval q u s).2 k)
      (((kartOnPlane solve kart).eval q' u' s').2 k)) :
    KartOnPlane solve sigma L tol (kart s) q (arrayOf u) (kart s') q' (arrayOf u') := by
  obtain ⟨a, a0, a1, a2, a3, a4, a7, a8, a9, a10, a11, a12⟩ := kart_plane_rows solve kart q u s
  obtain ⟨b, b0, b1, b2, b3, b4, b7, b8, b9, b10, b11, b12⟩ := kart_plane_rows solve kart q' u' s'
  have go (k : Nat) (hk : k < 13) {y y' : ℝ} (h1 : ((kartOnPlane solve kart).eval q u s).2 k = y)
      (h2 : ((kartOnPlane solve kart).eval q' u' s').2 k = y') : Changes sigma L tol (q k) (q' k) y y' := by
    have := h k hk
    rw [← h1, ← h2, ← a k hk, ← b k hk]
    exact this
  exact ⟨go 0 (by norm_num) a0 b0, go 1 (by norm_num) a1 b1, go 2 (by norm_num) a2 b2, go 7 (by norm_num) a7 b7,
    fun k hk => go (4 + k) (by omega) (a4 k hk) (b4 k hk), go 10 (by norm_num) a10 b10, go 11 (by norm_num) a11 b11,
    go 12 (by norm_num) a12 b12, go 8 (by norm_num) a8 b8, go 9 (by norm_num) a9 b9, go 3 (by norm_num) a3 b3⟩

end

end Verif.Propagation
