import Verif.Lemmas.Preprocessor
import Verif.Lemmas.PreprocessorHeading
import Mathlib.Tactic.NormNum
import Mathlib.Tactic.FieldSimp
import Mathlib.Tactic.LinearCombination
import Mathlib.Algebra.Order.ToIntervalMod

/-! # Geometry of the track preprocessor: boundaries, coordinates, headings -/

set_option autoImplicit false

namespace Verif.Preprocessor

open Verif.Road (Vec3)

/-! ## C58: boundaries -/

theorem travel_unit (k : Kind) (q : Nat → ℝ) : Road.dot (travel k q) (travel k q) = 1 := by
  cases k <;> simp only [travel, Road.dot]
  · linear_combination Real.sin_sq_add_cos_sq (q FlatState.yaw.val)
  · linear_combination (Real.cos (q ElevState.pitch.val)) ^ 2
        * Real.sin_sq_add_cos_sq (q ElevState.yaw.val)
      + Real.sin_sq_add_cos_sq (q ElevState.pitch.val)

/-- The direction of travel is the derivative of the position in the equations of the fit. -/
theorem travel_eq_equations (q u : Nat → ℝ) :
    (equations .flat q u).take 2 = [(travel .flat q).1, (travel .flat q).2.1] ∧
    (equations .elevated q u).take 3
      = [(travel .elevated q).1, (travel .elevated q).2.1, (travel .elevated q).2.2] := ⟨rfl, rfl⟩

/-- C58. There is a unit vector perpendicular to the direction of travel such that the left boundary
is `nl` away against it and the right boundary `nr` away along it; when the road is not upside down it
points to the right (the third axis points down). -/
theorem C58_boundaries (k : Kind) (q : Nat → ℝ) :
    ∃ side : Vec3, Road.dot side side = 1 ∧ Road.dot side (travel k q) = 0 ∧
      leftBoundary k q - centre k q = -(q (iNl k)) • side ∧
      rightBoundary k q - centre k q = q (iNr k) • side ∧
      len (leftBoundary k q - centre k q) = |q (iNl k)| ∧
      len (rightBoundary k q - centre k q) = |q (iNr k)| ∧
      ((k = .elevated →
          0 < Real.cos (q ElevState.pitch.val) ∧ 0 < Real.cos (q ElevState.roll.val)) →
        0 < (Road.cross (travel k q) side).2.2) := by
  have hlen : ∀ (side : Vec3) (a : ℝ), Road.dot side side = 1 → len (a • side) = |a| := by
    intro side a h
    have : Road.dot (a • side) (a • side) = a ^ 2 := by
      simp only [Road.dot, Prod.smul_fst, Prod.smul_snd, smul_eq_mul] at h ⊢
      linear_combination a ^ 2 * h
    rw [len, this, Real.sqrt_sq_eq_abs]
  suffices h : ∃ side : Vec3, Road.dot side side = 1 ∧ Road.dot side (travel k q) = 0 ∧
      leftBoundary k q - centre k q = -(q (iNl k)) • side ∧
      rightBoundary k q - centre k q = q (iNr k) • side ∧
      ((k = .elevated →
          0 < Real.cos (q ElevState.pitch.val) ∧ 0 < Real.cos (q ElevState.roll.val)) →
        0 < (Road.cross (travel k q) side).2.2) by
    obtain ⟨side, h1, h2, h3, h4, h5⟩ := h
    refine ⟨side, h1, h2, h3, h4, ?_, ?_, h5⟩
    · rw [h3, hlen side _ h1, abs_neg]
    · rw [h4, hlen side _ h1]
  cases k with
  | flat =>
    refine ⟨(-Real.sin (q FlatState.yaw.val), Real.cos (q FlatState.yaw.val), 0), ?_, ?_, ?_, ?_, ?_⟩
    · simp only [Road.dot]; linear_combination Real.sin_sq_add_cos_sq (q FlatState.yaw.val)
    · simp only [Road.dot, travel]; ring
    · simp only [leftBoundary, centre, coordinates, Prod.smul_mk, smul_eq_mul, Prod.mk_sub_mk, iNl]
      refine Prod.ext ?_ (Prod.ext ?_ ?_) <;> simp only <;> ring
    · simp only [rightBoundary, centre, coordinates, Prod.smul_mk, smul_eq_mul, Prod.mk_sub_mk, iNr]
      refine Prod.ext ?_ (Prod.ext ?_ ?_) <;> simp only <;> ring
    · intro _
      have : (Road.cross (travel .flat q)
          (-Real.sin (q FlatState.yaw.val), Real.cos (q FlatState.yaw.val), 0)).2.2 = 1 := by
        simp only [Road.cross, travel]
        linear_combination Real.sin_sq_add_cos_sq (q FlatState.yaw.val)
      rw [this]; exact one_pos
  | elevated =>
    have hy := Real.sin_sq_add_cos_sq (q ElevState.yaw.val)
    have hp := Real.sin_sq_add_cos_sq (q ElevState.pitch.val)
    have hr := Real.sin_sq_add_cos_sq (q ElevState.roll.val)
    refine ⟨(Real.cos (q ElevState.yaw.val) * Real.sin (q ElevState.pitch.val)
          * Real.sin (q ElevState.roll.val)
          - Real.sin (q ElevState.yaw.val) * Real.cos (q ElevState.roll.val),
        Real.sin (q ElevState.yaw.val) * Real.sin (q ElevState.pitch.val)
          * Real.sin (q ElevState.roll.val)
          + Real.cos (q ElevState.yaw.val) * Real.cos (q ElevState.roll.val),
        Real.cos (q ElevState.pitch.val) * Real.sin (q ElevState.roll.val)), ?_, ?_, ?_, ?_, ?_⟩
    · simp only [Road.dot]
      linear_combination (Real.sin (q ElevState.pitch.val) ^ 2 * Real.sin (q ElevState.roll.val) ^ 2
        + Real.cos (q ElevState.roll.val) ^ 2) * hy + Real.sin (q ElevState.roll.val) ^ 2 * hp + hr
    · simp only [Road.dot, travel]
      linear_combination Real.sin (q ElevState.pitch.val) * Real.sin (q ElevState.roll.val)
        * Real.cos (q ElevState.pitch.val) * hy
    · simp only [leftBoundary, centre, coordinates, Prod.smul_mk, smul_eq_mul, Prod.mk_sub_mk, iNl]
      refine Prod.ext ?_ (Prod.ext ?_ ?_) <;> simp only <;> ring
    · simp only [rightBoundary, centre, coordinates, Prod.smul_mk, smul_eq_mul, Prod.mk_sub_mk, iNr]
      refine Prod.ext ?_ (Prod.ext ?_ ?_) <;> simp only <;> ring
    · intro h
      obtain ⟨h1, h2⟩ := h rfl
      have : (Road.cross (travel .elevated q)
          (Real.cos (q ElevState.yaw.val) * Real.sin (q ElevState.pitch.val)
            * Real.sin (q ElevState.roll.val)
            - Real.sin (q ElevState.yaw.val) * Real.cos (q ElevState.roll.val),
          Real.sin (q ElevState.yaw.val) * Real.sin (q ElevState.pitch.val)
            * Real.sin (q ElevState.roll.val)
            + Real.cos (q ElevState.yaw.val) * Real.cos (q ElevState.roll.val),
          Real.cos (q ElevState.pitch.val) * Real.sin (q ElevState.roll.val))).2.2
          = Real.cos (q ElevState.pitch.val) * Real.cos (q ElevState.roll.val) := by
        simp only [Road.cross, travel]
        linear_combination (Real.cos (q ElevState.pitch.val) * Real.cos (q ElevState.roll.val)) * hy
      rw [this]; exact mul_pos h1 h2

/-- C58. The boundaries are in the lateral direction the road model gives to a car on the track: a car
with lateral displacement `nr` is on the right boundary and one with `-nl` on the left one. -/
theorem C58_same_as_road (q : Nat → ℝ) (f : Road.TrackPoint)
    (hyaw : f.yaw = q ElevState.yaw.val) (hpitch : f.pitch = q ElevState.pitch.val)
    (hroll : f.roll = q ElevState.roll.val) (hpos : f.position = centre .elevated q) :
    rightBoundary .elevated q = f.position + q (iNr .elevated) • Road.normal f ∧
    leftBoundary .elevated q = f.position + (-q (iNl .elevated)) • Road.normal f := by
  rw [hpos]
  simp only [rightBoundary, leftBoundary, centre, coordinates, Road.normal, hyaw, hpitch, hroll,
    Prod.smul_mk, smul_eq_mul, Prod.mk_add_mk]
  constructor <;> refine Prod.ext ?_ (Prod.ext ?_ ?_) <;> simp only <;> ring

/-- The stored position is the point at zero lateral distance. -/
theorem centre_eq (k : Kind) (q u : Nat → ℝ) :
    centre k q = ((store k q u).x, (store k q u).y, (store k q u).z) := by
  cases k <;> simp [centre, coordinates, store]

/-- C58. The distances of the boundaries are the widths stored for the point, and the left one is against the side that the right
one is along. -/
theorem C58_widths (k : Kind) (q u : Nat → ℝ) :
    len (leftBoundary k q - centre k q) = |(store k q u).nl| ∧ len (rightBoundary k q - centre k q) = |(store k q u).nr| ∧
      ∃ side : Vec3, Road.dot side side = 1 ∧ Road.dot side (travel k q) = 0 ∧
        leftBoundary k q - centre k q = -(store k q u).nl • side ∧ rightBoundary k q - centre k q = (store k q u).nr • side := by
  obtain ⟨side, h1, h2, h3, h4, h5, h6, -⟩ := C58_boundaries k q
  have el : q (iNl k) = (store k q u).nl := by cases k <;> rfl
  have er : q (iNr k) = (store k q u).nr := by cases k <;> rfl
  rw [el] at h3 h5
  rw [er] at h4 h6
  exact ⟨h5, h6, side, h1, h2, h3, h4⟩

/-- C58 on a flat point heading along the first axis: left is towards negative `y`. -/
example : leftBoundary .flat (fun j => if j = 4 then 3 else if j = 5 then 5 else 0) = (0, -3, 0) ∧
    rightBoundary .flat (fun j => if j = 4 then 3 else if j = 5 then 5 else 0) = (0, 5, 0) := by
  constructor <;> simp [leftBoundary, rightBoundary, coordinates, iNl, iNr, FlatState.val]

/-! ## C59: reading coordinates -/

section Kml

variable {K : Type*}

theorem triples_eq [Zero K] (e : Bool) : ∀ (raw : List K), raw.length % 3 = 0 →
    ∃ cs, triples e raw = .ok cs ∧ cs.length = raw.length / 3 ∧
      ∀ i c, cs[i]? = some c →
        raw[3 * i]? = some c.longitude ∧ raw[3 * i + 1]? = some c.latitude ∧
          (if e then raw[3 * i + 2]? = some c.altitude else c.altitude = 0) := by
  intro raw h
  have hi : ∀ i, i < raw.length / 3 → 3 * i + 2 < raw.length := by intro i hi; omega
  refine ⟨(List.range (raw.length / 3)).pmap (fun i (hi : 3 * i + 2 < raw.length) =>
    (⟨raw[3 * i], raw[3 * i + 1], if e then raw[3 * i + 2] else 0⟩ : Coord K))
    (fun i h => hi i (List.mem_range.1 h)), ?_, by simp, ?_⟩
  · unfold triples
    suffices ∀ (l : List Nat) (hl : ∀ i ∈ l, 3 * i + 2 < raw.length),
        mapRes (fun i => (idx raw (3 * i)).bind fun lon => (idx raw (3 * i + 1)).bind fun lat =>
          if e then (idx raw (3 * i + 2)).bind fun alt => .ok (⟨lon, lat, alt⟩ : Coord K)
          else .ok ⟨lon, lat, 0⟩) l = .ok (l.pmap (fun i (hi : 3 * i + 2 < raw.length) =>
            (⟨raw[3 * i], raw[3 * i + 1], if e then raw[3 * i + 2] else 0⟩ : Coord K)) hl) from
      this _ _
    intro l hl
    induction l with
    | nil => rfl
    | cons i l ih =>
      have h2 := hl i (by simp)
      rw [mapRes, idx_of_lt (by omega : 3 * i < raw.length), Res.bind_ok,
        idx_of_lt (by omega : 3 * i + 1 < raw.length), Res.bind_ok, idx_of_lt h2,
        ih (fun j hj => hl j (by simp [hj]))]
      cases e <;> rfl
  · intro i c hc
    obtain ⟨hlt, rfl⟩ := List.getElem?_eq_some_iff.1 hc
    have hlt : i < raw.length / 3 := by simpa using hlt
    have h2 := hi i hlt
    simp only [List.getElem_pmap, List.getElem_range]
    refine ⟨List.getElem?_eq_getElem _, List.getElem?_eq_getElem _, ?_⟩
    cases e
    · simp
    · simp [h2]

/-- The number at position `3i`, `3i+1`, `3i+2` of the interleaved list is of point `i`. -/
theorem interleave_get : ∀ (cs : List (Coord K)) (i : Nat) (c : Coord K), cs[i]? = some c →
    (interleave cs)[3 * i]? = some c.longitude ∧ (interleave cs)[3 * i + 1]? = some c.latitude ∧
      (interleave cs)[3 * i + 2]? = some c.altitude
  | [], i, c, h => by simp at h
  | a :: cs, 0, c, h => by
    simp only [List.getElem?_cons_zero, Option.some.injEq] at h
    subst h
    simp [interleave]
  | a :: cs, i + 1, c, h => by
    have := interleave_get cs i c (by simpa using h)
    have e : interleave (a :: cs) = a.longitude :: a.latitude :: a.altitude :: interleave cs := by
      simp [interleave]
    rw [e, show 3 * (i + 1) = 3 * i + 1 + 1 + 1 by ring]
    simpa using this

theorem interleave_length (cs : List (Coord K)) : (interleave cs).length = 3 * cs.length := by
  induction cs with
  | nil => rfl
  | cons a cs ih =>
    have e : interleave (a :: cs) = a.longitude :: a.latitude :: a.altitude :: interleave cs := by
      simp [interleave]
    rw [e]; simp only [List.length_cons, ih]; ring

theorem interleave_triples {raw : List K} (h : raw.length % 3 = 0) {cs : List (Coord K)}
    (hlen : cs.length = raw.length / 3)
    (hcs : ∀ i c, cs[i]? = some c →
        raw[3 * i]? = some c.longitude ∧ raw[3 * i + 1]? = some c.latitude ∧
          raw[3 * i + 2]? = some c.altitude) : interleave cs = raw := by
  refine List.ext_getElem? fun j => ?_
  by_cases hj : j < raw.length
  · have hi : j / 3 < cs.length := by omega
    obtain ⟨a1, a2, a3⟩ := interleave_get cs (j / 3) cs[j / 3] (List.getElem?_eq_getElem hi)
    obtain ⟨b1, b2, b3⟩ := hcs (j / 3) cs[j / 3] (List.getElem?_eq_getElem hi)
    have : j = 3 * (j / 3) ∨ j = 3 * (j / 3) + 1 ∨ j = 3 * (j / 3) + 2 := by omega
    rcases this with hh | hh | hh <;> rw [hh]
    · rw [a1, b1]
    · rw [a2, b2]
    · rw [a3, b3]
  · rw [List.getElem?_eq_none (by rw [interleave_length]; omega), List.getElem?_eq_none (by omega)]

/-- C59. A pair of documents is read exactly when each has the numbers where they are looked for and
their count is a multiple of three; the points, written out one after the other, are then the numbers
of the documents. Otherwise an exception is thrown; undefined behaviour is impossible. -/
theorem C59_with_elevation [Zero K] (left right : Kml K) (cl cr : List (Coord K)) :
    (readKml true left right = .ok (cl, cr) ↔
      left.Holds (interleave cl) ∧ right.Holds (interleave cr)) ∧
    readKml true left right ≠ .ub := by
  have hHolds : ∀ (d : Kml K) l, d.Holds l ↔ d.numbers = .ok l := by
    intro d l
    obtain ⟨p, f⟩ := d
    cases p <;> cases f <;> simp [Kml.Holds, Kml.numbers]
  rw [hHolds, hHolds]
  have hnum : ∀ d : Kml K, d.numbers ≠ .ub := by
    intro d; unfold Kml.numbers; split <;> [simp; (split <;> simp)]
  have key : ∀ l r : List K, l.length % 3 = 0 → r.length % 3 = 0 →
      ∃ cl cr, (triples true l).bind (fun cl => (triples true r).bind fun cr => .ok (cl, cr))
        = .ok (cl, cr) ∧ interleave cl = l ∧ interleave cr = r := by
    intro l r hl hr
    obtain ⟨cl, h1, h2, h3⟩ := triples_eq true l hl
    obtain ⟨cr, h4, h5, h6⟩ := triples_eq true r hr
    refine ⟨cl, cr, by rw [h1, Res.bind_ok, h4]; rfl, ?_, ?_⟩
    · exact interleave_triples hl h2 (fun i c hc => by simpa using h3 i c hc)
    · exact interleave_triples hr h5 (fun i c hc => by simpa using h6 i c hc)
  have inj : ∀ a b : List (Coord K), interleave a = interleave b → a = b := by
    intro a
    induction a with
    | nil => intro b h; cases b with
      | nil => rfl
      | cons c b => simp [interleave] at h
    | cons c a ih => intro b h; cases b with
      | nil => simp [interleave] at h
      | cons d b =>
        have e : ∀ (c : Coord K) cs, interleave (c :: cs)
            = c.longitude :: c.latitude :: c.altitude :: interleave cs := by
          intro c cs; simp [interleave]
        rw [e, e] at h
        simp only [List.cons.injEq] at h
        obtain ⟨h1, h2, h3, h4⟩ := h
        rw [ih b h4]
        cases c; cases d; simp_all
  unfold readKml
  cases hl : left.numbers with
  | ub => exact absurd hl (hnum _)
  | throw => simp
  | ok l =>
    cases hr : right.numbers with
    | ub => exact absurd hr (hnum _)
    | throw => simp
    | ok r =>
      simp only [Res.bind_ok, Res.ok.injEq]
      by_cases h1 : l.length % 3 = 0
      · by_cases h2 : r.length % 3 = 0
        · simp only [h1, h2, ne_eq, not_true_eq_false, if_false]
          obtain ⟨cl', cr', h3, h4, h5⟩ := key l r h1 h2
          rw [h3]
          refine ⟨⟨?_, ?_⟩, by simp⟩
          · intro h
            simp only [Res.ok.injEq, Prod.mk.injEq] at h
            rw [← h.1, ← h.2]; exact ⟨h4.symm, h5.symm⟩
          · rintro ⟨h6, h7⟩
            rw [inj cl' cl (by rw [h4, h6]), inj cr' cr (by rw [h5, h7])]
        · simp only [h1, h2, ne_eq, not_true_eq_false, if_false, not_false_eq_true, if_true]
          refine ⟨⟨by simp, ?_⟩, by simp⟩
          rintro ⟨_, h7⟩
          exact absurd (by rw [h7, interleave_length]; omega) h2
      · simp only [h1, ne_eq, not_false_eq_true, if_true]
        refine ⟨⟨by simp, ?_⟩, by simp⟩
        rintro ⟨h6, _⟩
        exact absurd (by rw [h6, interleave_length]; omega) h1

/-- C59. Without elevation the same documents are read or rejected, and the points are the same with
zero altitude. -/
theorem C59_without_elevation [Zero K] (left right : Kml K) :
    readKml false left right = (readKml true left right).map fun p =>
      (p.1.map fun c => { c with altitude := 0 }, p.2.map fun c => { c with altitude := 0 }) := by
  have key : ∀ l : List K, l.length % 3 = 0 → triples false l = (triples true l).map fun cs =>
      cs.map fun c => { c with altitude := 0 } := by
    intro l hl
    obtain ⟨a, h1, h2, h3⟩ := triples_eq false l hl
    obtain ⟨b, h4, h5, h6⟩ := triples_eq true l hl
    rw [h1, h4, Res.map_ok]
    congr 1
    refine List.ext_getElem (by simp [h2, h5]) fun i hi1 hi2 => ?_
    have hib : i < b.length := by simpa using hi2
    have ha := h3 i a[i] (List.getElem?_eq_getElem hi1)
    have hb := h6 i b[i] (List.getElem?_eq_getElem hib)
    simp only [List.getElem_map]
    have e1 := ha.1.symm.trans hb.1
    have e2 := ha.2.1.symm.trans hb.2.1
    have e3 : a[i].altitude = 0 := by simpa using ha.2.2
    simp only [Option.some.injEq] at e1 e2
    cases h : a[i]; rw [h] at e1 e2 e3; simp_all
  unfold readKml
  cases left.numbers with
  | ub => rfl
  | throw => rfl
  | ok l =>
    cases right.numbers with
    | ub => rfl
    | throw => rfl
    | ok r =>
      simp only [Res.bind_ok]
      by_cases h1 : l.length % 3 = 0
      · by_cases h2 : r.length % 3 = 0
        · simp only [h1, h2, ne_eq, not_true_eq_false, if_false]
          rw [key l h1, key r h2]
          cases triples true l <;> cases triples true r <;> rfl
        · simp [h1, h2]
      · simp [h1]

end Kml

/-- C59: two points on the left, one on the right (in a folder), and a list that is rejected. -/
example : readKml true (⟨some [1, 2, 3, 4, 5, 6], none⟩ : Kml ℚ) ⟨none, some [7, 8, 9]⟩
    = .ok ([⟨1, 2, 3⟩, ⟨4, 5, 6⟩], [⟨7, 8, 9⟩]) ∧
    readKml true (⟨some [1, 2, 3, 4], none⟩ : Kml ℚ) ⟨none, some [7, 8, 9]⟩ = .throw ∧
    readKml true (⟨none, none⟩ : Kml ℚ) ⟨none, some [7, 8, 9]⟩ = .throw := ⟨rfl, rfl, rfl⟩

/-! ## C60: continuous heading -/

/-- C60. The continued headings are one per original heading, the same angles, start with the original
first one, and consecutive ones differ by at most half a turn. -/
theorem C60_continuous {wrap : ℝ → ℝ} (hw : WrapsToPi wrap) (ys : List ℝ) :
    (unwrap wrap ys).length = ys.length ∧
      (∀ (i : Nat) (a b : ℝ), (unwrap wrap ys)[i]? = some a → ys[i]? = some b → SameAngle a b) ∧
      (unwrap wrap ys)[0]? = ys[0]? ∧
      (∀ (i : Nat) (a b : ℝ), (unwrap wrap ys)[i]? = some a → (unwrap wrap ys)[i + 1]? = some b →
        |b - a| ≤ Real.pi) := by
  cases ys with
  | nil => simp [unwrap]
  | cons y l =>
    obtain ⟨h1, h2⟩ := unwrapFrom_spec hw l y
    have h3 : List.Forall₂ SameAngle (unwrap wrap (y :: l)) (y :: l) :=
      List.Forall₂.cons (SameAngle.refl y) h1
    refine ⟨unwrap_length wrap _, ?_, rfl, ?_⟩
    · intro i a b ha hb
      obtain ⟨hi, rfl⟩ := List.getElem?_eq_some_iff.1 ha
      obtain ⟨hj, rfl⟩ := List.getElem?_eq_some_iff.1 hb
      have := (List.forall₂_iff_get.1 h3).2 i hi hj
      simpa using this
    · intro i a b ha hb
      obtain ⟨hi, rfl⟩ := List.getElem?_eq_some_iff.1 ha
      obtain ⟨hj, rfl⟩ := List.getElem?_eq_some_iff.1 hb
      exact List.isChain_iff_getElem.1 h2 i hj

/-- C60. In a flat computation the continued heading of a point is the direction to the next point
(on a closed circuit, after the last point comes the first). -/
theorem C60_towards_next {wrap : ℝ → ℝ} (hw : WrapsToPi wrap) (closed : Bool) (pts : List (ℝ × ℝ))
    (raw : List ℝ) (h : rawHeadings closed pts = .ok raw) (i : Nat) (a b : ℝ × ℝ) (y : ℝ)
    (ha : pts[i]? = some a)
    (hb : if closed then pts[(i + 1) % pts.length]? = some b else pts[i + 1]? = some b)
    (hy : (unwrap wrap raw)[i]? = some y) :
    raw.length = pts.length ∧
    b.1 = a.1 + Real.sqrt ((b.1 - a.1) ^ 2 + (b.2 - a.2) ^ 2) * Real.cos y ∧
    b.2 = a.2 + Real.sqrt ((b.1 - a.1) ^ 2 + (b.2 - a.2) ^ 2) * Real.sin y := by
  have hlt : i < pts.length := (List.getElem?_eq_some_iff.1 ha).1
  have hcl := chords_length pts
  have key : raw.length = pts.length ∧ raw[i]? = some (atan2 (b.2 - a.2) (b.1 - a.1)) := by
    unfold rawHeadings at h
    have hne : pts ≠ [] := by rintro rfl; simp at hlt
    obtain ⟨p, l, rfl⟩ : ∃ p l, pts = p :: l := List.exists_cons_of_ne_nil hne
    rw [List.head?_cons, List.getLast?_eq_some_getLast hne] at h
    cases closed with
    | true =>
      simp only [if_true, Res.ok.injEq] at h hb
      subst h
      refine ⟨by rw [List.length_append, hcl]; simp, ?_⟩
      by_cases hi : i + 1 < (p :: l).length
      · rw [Nat.mod_eq_of_lt hi] at hb
        rw [List.getElem?_append_left (by omega), chords_get _ i a b ha hb]
      · have hi' : i + 1 = (p :: l).length := by omega
        rw [hi', Nat.mod_self, List.getElem?_cons_zero, Option.some.injEq] at hb
        subst hb
        have : a = (p :: l).getLast hne := by
          rw [List.getLast_eq_getElem]
          obtain ⟨_, e⟩ := List.getElem?_eq_some_iff.1 ha
          rw [← e]; congr 1; omega
        rw [List.getElem?_append_right (by omega), hcl, this]
        simp [show i - l.length = 0 by simp at hi'; omega]
    | false =>
      simp only [Bool.false_eq_true, if_false] at h hb
      have hi : i + 1 < (p :: l).length := (List.getElem?_eq_some_iff.1 hb).1
      cases hc : (chords (p :: l)).getLast? with
      | none => rw [hc] at h; simp at h
      | some z =>
        rw [hc] at h
        simp only [Res.ok.injEq] at h
        subst h
        refine ⟨by rw [List.length_append, hcl]; simp, ?_⟩
        rw [List.getElem?_append_left (by omega), chords_get _ i a b ha hb]
  refine ⟨key.1, ?_⟩
  have hs := (C60_continuous hw raw).2.1 i _ _ hy key.2
  obtain ⟨d1, d2⟩ := atan2_direction (b.1 - a.1) (b.2 - a.2)
  rw [hs.cos_eq, hs.sin_eq]
  constructor
  · linarith [d1]
  · linarith [d2]

/-- The assumption on `wrap_to_pi` can be met. -/
example : WrapsToPi (fun a => toIocMod Real.two_pi_pos (-Real.pi) a) := by
  refine ⟨fun a => ?_, fun a => ⟨-toIocDiv Real.two_pi_pos (-Real.pi) a, ?_⟩⟩
  · have := toIocMod_mem_Ioc Real.two_pi_pos (-Real.pi) a
    rw [abs_le]
    exact ⟨le_of_lt this.1, by linarith [this.2]⟩
  · have := toIocMod_add_toIocDiv_zsmul Real.two_pi_pos (-Real.pi) a
    rw [zsmul_eq_mul] at this
    push_cast
    linarith

/-! ## C115: closing the heading of a closed circuit -/

/-- C115, the part that holds. A closed circuit turns a whole number of times, counting the step from
the last heading back to the first as the shortest one. The change of heading used for the closing
element is at most half a turn when the circuit turns exactly once in the direction it is given; the
converse also holds up to the case of exactly half a turn. -/
theorem C115_closing_partial {wrap : ℝ → ℝ} (hw : WrapsToPi wrap) (first last : ℝ) :
    ∃ turns : ℤ, (last - first) + wrap (first - last) = 2 * Real.pi * turns ∧
      (turns = direction first last → |closingTurn first last| ≤ Real.pi) ∧
      (turns ≠ direction first last → Real.pi ≤ |closingTurn first last|) := by
  obtain ⟨k, hk⟩ := hw.same (first - last)
  have hb := hw.within (first - last)
  rw [abs_le] at hb
  have hpi := Real.pi_pos
  refine ⟨k, by rw [hk]; ring, ?_, ?_⟩
  · intro h
    unfold closingTurn
    rw [← h, show first + 2 * Real.pi * k - last = wrap (first - last) by rw [hk]; ring]
    exact hw.within _
  · intro h
    have e : closingTurn first last
        = wrap (first - last) + 2 * Real.pi * ((direction first last : ℤ) - k : ℝ) := by
      unfold closingTurn; rw [hk]; ring
    rw [e]
    rcases lt_or_gt_of_ne h with hlt | hgt
    · have : (1 : ℝ) ≤ (direction first last : ℤ) - k := by
        have : (1 : ℤ) ≤ direction first last - k := by omega
        exact_mod_cast this
      refine le_trans ?_ (le_abs_self _)
      nlinarith [hb.1]
    · have : ((direction first last : ℤ) : ℝ) - k ≤ -1 := by
        have : direction first last - k ≤ -1 := by omega
        exact_mod_cast this
      refine le_trans ?_ (neg_le_abs _)
      nlinarith [hb.2]

/-- A circuit in the form of an eight, with steps of one metre; it crosses itself at (1,0). -/
def eight : List (ℝ × ℝ) := [(0, 0), (1, 0), (2, 0), (2, 1), (1, 1), (1, 0), (1, -1), (0, -1)]

theorem eight_headings : rawHeadings true eight
    = .ok [0, 0, Real.pi / 2, Real.pi, -(Real.pi / 2), -(Real.pi / 2), Real.pi, Real.pi / 2] := by
  have e1 : Complex.arg ⟨1, 0⟩ = 0 := by
    rw [show (⟨1, 0⟩ : ℂ) = 1 from rfl]; exact Complex.arg_one
  have e2 : Complex.arg ⟨0, 1⟩ = Real.pi / 2 := Complex.arg_I
  have e3 : Complex.arg ⟨-1, 0⟩ = Real.pi := by
    rw [show (⟨-1, 0⟩ : ℂ) = -1 by apply Complex.ext <;> simp]; exact Complex.arg_neg_one
  have e4 : Complex.arg ⟨0, -1⟩ = -(Real.pi / 2) := by
    rw [show (⟨0, -1⟩ : ℂ) = -Complex.I by apply Complex.ext <;> simp]; exact Complex.arg_neg_I
  simp only [rawHeadings, eight, List.head?_cons, List.getLast?_cons_cons, List.getLast?_singleton,
    if_true, chords, atan2, List.cons_append, List.nil_append, Res.ok.injEq, List.cons.injEq, and_true]
  norm_num [e1, e2, e3, e4]

/-- C115 is false: on a circuit in the form of an eight the heading of the closing element changes by
three quarters of a turn instead of a quarter, whatever `wrap_to_pi` does at half a turn. -/
theorem C115_false {wrap : ℝ → ℝ} (hw : WrapsToPi wrap) :
    ∃ raw first last, rawHeadings true eight = .ok raw ∧
      (unwrap wrap raw).head? = some first ∧ (unwrap wrap raw).getLast? = some last ∧
      wrap (first - last) = -(Real.pi / 2) ∧ closingTurn first last = 3 * Real.pi / 2 ∧
      Real.pi < |closingTurn first last| := by
  have hpi := Real.pi_pos
  have hh : |Real.pi / 2| < Real.pi := by rw [abs_of_pos (by linarith)]; linarith
  have hh' : |-(Real.pi / 2)| < Real.pi := by rw [abs_neg]; exact hh
  have h0 : |(0 : ℝ)| < Real.pi := by simpa using hpi
  have w0 : wrap (0 - 0) = 0 := hw.eq h0 ⟨0, by simp⟩
  have w1 : wrap (Real.pi / 2 - (0 + 0)) = Real.pi / 2 := hw.eq hh ⟨0, by simp⟩
  have w2 : wrap (Real.pi - (0 + 0 + Real.pi / 2)) = Real.pi / 2 :=
    hw.eq hh ⟨0, by push_cast; ring⟩
  have w3 : wrap (-(Real.pi / 2) - (0 + 0 + Real.pi / 2 + Real.pi / 2)) = Real.pi / 2 :=
    hw.eq hh ⟨-1, by push_cast; ring⟩
  have w4 : wrap (-(Real.pi / 2) - (0 + 0 + Real.pi / 2 + Real.pi / 2 + Real.pi / 2)) = 0 :=
    hw.eq h0 ⟨-1, by push_cast; ring⟩
  have w5 : wrap (Real.pi - (0 + 0 + Real.pi / 2 + Real.pi / 2 + Real.pi / 2 + 0)) = -(Real.pi / 2) :=
    hw.eq hh' ⟨0, by push_cast; ring⟩
  have w6 : wrap (Real.pi / 2
      - (0 + 0 + Real.pi / 2 + Real.pi / 2 + Real.pi / 2 + 0 + -(Real.pi / 2))) = -(Real.pi / 2) :=
    hw.eq hh' ⟨0, by push_cast; ring⟩
  have hc : closingTurn 0 (Real.pi / 2) = 3 * Real.pi / 2 := by
    have : direction (0 : ℝ) (Real.pi / 2) = 1 := if_pos (by linarith)
    unfold closingTurn; rw [this]; push_cast; ring
  refine ⟨_, 0, Real.pi / 2, eight_headings, rfl, ?_, ?_, hc, ?_⟩
  · simp only [unwrap, unwrapFrom, w0, w1, w2, w3, w4, w5, w6, List.getLast?_cons_cons,
      List.getLast?_singleton, Option.some.injEq]
    ring
  · exact hw.eq hh' ⟨0, by push_cast; ring⟩
  · rw [hc, abs_of_pos (by linarith)]; linarith

/-- A square run anticlockwise turns once: the closing element turns by a quarter. -/
example : closingTurn 0 (3 * Real.pi / 2) = Real.pi / 2 := by
  have hpi := Real.pi_pos
  have : direction (0 : ℝ) (3 * Real.pi / 2) = 1 := if_pos (by linarith)
  unfold closingTurn; rw [this]; push_cast; ring

end Verif.Preprocessor
