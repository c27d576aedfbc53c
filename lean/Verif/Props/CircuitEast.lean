import Verif.Spec.CircuitEast
import Verif.Props.CircuitFit
import Verif.Props.MeshPoints

/-! Properties of circuits that lie further east, and of the ends of a trimmed circuit (C257, C258). -/

set_option autoImplicit false

namespace Verif.Fit

open Verif.Road (Vec3)
open Verif.Preprocessor

/-! ### C257 -/

theorem mapRes_map {α β γ : Type} (f : α → Res β) (g : α → Res γ) (h : β → γ) (hg : ∀ a, g a = (f a).map h) :
    ∀ l : List α, mapRes g l = (mapRes f l).map (List.map h)
  | [] => rfl
  | a :: l => by
    simp only [mapRes, hg a, mapRes_map f g h hg l]
    cases f a <;> simp [Res.bind, Res.map]
    cases mapRes f l <;> simp

theorem idx_map {α β : Type} (f : α → β) (l : List α) (i : Nat) : idx (l.map f) i = (idx l i).map f := by
  simp only [idx, List.getElem?_map]
  cases l[i]? <;> rfl

theorem outside_east (Δ : ℝ) (p l r : Mesh.Flat ℝ) :
    Mesh.outside (eastFlat Δ p) (eastFlat Δ l) (eastFlat Δ r) ↔ Mesh.outside p l r := by
  simp only [Mesh.outside, eastFlat, add_sub_add_right_eq_sub]

theorem trimSide_east (Δ : ℝ) (coords : List (Coord ℝ)) (s f : Mesh.Closest (Mesh.Flat ℝ)) :
    Mesh.trimSide (coords.map (east Δ)) ⟨eastFlat Δ s.point, s.front, s.back⟩ ⟨eastFlat Δ f.point, f.front, f.back⟩ =
      (Mesh.trimSide coords s f).map (List.map (east Δ)) := by
  unfold Mesh.trimSide
  simp only
  split_ifs <;>
    first
    | rfl
    | (rw [mapRes_map (fun i => idx coords i) _ (east Δ) (fun i => idx_map _ _ _)]
       cases mapRes (fun i => idx coords i) _ <;> simp [Res.map, Res.bind, east, eastFlat])

theorem coordinates_east {find : List (Coord ℝ) → Mesh.Flat ℝ → Mesh.Closest (Mesh.Flat ℝ)} (hf : LooksAtDifferences find) (Δ : ℝ)
    (req : Request) (left right : List (Coord ℝ)) :
    (eastRequest Δ req).coordinates find (left.map (east Δ)) (right.map (east Δ)) =
      (req.coordinates find left right).map fun p => (p.1.map (east Δ), p.2.map (east Δ)) := by
  cases req with
  | openElements start finish n =>
    have h1 : ∀ p, Mesh.outside (eastFlat Δ p) (find (left.map (east Δ)) (eastFlat Δ p)).point
        (find (right.map (east Δ)) (eastFlat Δ p)).point ↔ Mesh.outside p (find left p).point (find right p).point := by
      intro p
      rw [hf, hf, outside_east]
    simp only [eastRequest, Request.coordinates]
    unfold Mesh.trim
    by_cases o1 : Mesh.outside start (find left start).point (find right start).point
    · rw [if_pos o1, if_pos ((h1 _).2 o1)]
      rfl
    · rw [if_neg o1, if_neg (mt (h1 _).1 o1)]
      by_cases o2 : Mesh.outside finish (find left finish).point (find right finish).point
      · rw [if_pos o2, if_pos ((h1 _).2 o2)]
        rfl
      · rw [if_neg o2, if_neg (mt (h1 _).1 o2)]
        simp only [hf Δ, trimSide_east]
        split_ifs <;> try rfl
        cases Mesh.trimSide left (find left start) (find left finish) <;> simp [Res.map, Res.bind]
        cases Mesh.trimSide right (find right start) (find right finish) <;> simp
  | _ => rfl

theorem toCartesian_east (deg R lat0 latRef Δ : ℝ) (o c : Coord ℝ) :
    toCartesian deg R ((east Δ o).longitude * deg) lat0 latRef (east Δ c) =
      toCartesian deg R (o.longitude * deg) lat0 latRef c := by
  simp only [toCartesian, east]
  congr 1
  ring

theorem transform_east (deg R Δ : ℝ) (left right : List (Coord ℝ)) :
    transformCoordinates deg R (left.map (east Δ)) (right.map (east Δ)) = transformCoordinates deg R left right := by
  cases right with
  | nil => rfl
  | cons o r =>
    have hlat : (east Δ o).latitude = o.latitude := rfl
    simp only [transformCoordinates, List.map_cons, List.map_map, hlat, toCartesian_east]
    have h : toCartesian deg R ((east Δ o).longitude * deg) (o.latitude * deg) (o.latitude * deg) ∘ east Δ =
        toCartesian deg R (o.longitude * deg) (o.latitude * deg) (o.latitude * deg) := by
      funext c
      simp only [Function.comp, toCartesian_east]
    rw [h]

theorem meshing_east (deg R Δ : ℝ) (o : Coord ℝ) (req : Request) :
    (eastRequest Δ req).meshing deg R (east Δ o) = req.meshing deg R o := by
  cases req with
  | breakpoints sizes =>
    have hlat : (east Δ o).latitude = o.latitude := rfl
    simp only [eastRequest, Request.meshing, List.map_map, hlat]
    congr 1
    refine List.map_congr_left fun c _ => ?_
    simp only [Function.comp, toCartesian_east]
  | _ => rfl

/-- C257: a circuit whose coordinates are all `Δ` degrees further east is fitted by the same track. -/
theorem C257_east (lib : Library) (find : List (Coord ℝ) → Mesh.Flat ℝ → Mesh.Closest (Mesh.Flat ℝ)) (hf : LooksAtDifferences find)
    (opt : Optimiser) (st : Settings) (ratio R : ℝ) (k : Kind) (req : Request) (left right : List (Coord ℝ)) (Δ : ℝ) (fuel : Nat) :
    preprocess lib find opt st ratio R k (eastRequest Δ req) (left.map (east Δ)) (right.map (east Δ)) fuel =
      preprocess lib find opt st ratio R k req left right fuel := by
  have hc : (eastRequest Δ req).closed = req.closed := by cases req <;> rfl
  unfold preprocess
  rw [coordinates_east hf]
  cases req.coordinates find left right with
  | throw => rfl
  | ub => rfl
  | ok lr =>
    simp only [Res.map, andThen, transform_east, idx_map, hc]
    cases transformCoordinates st.deg R lr.1 lr.2 with
    | throw => rfl
    | ub => rfl
    | ok m =>
      simp only [andThen]
      cases idx lr.2 0 with
      | throw => rfl
      | ub => rfl
      | ok o => simp only [meshing_east]

/-! ### C258 -/

theorem trim_ends {coords out : List (Coord ℝ)}
    {s f : Mesh.Closest (Mesh.Flat ℝ)} (h : Mesh.trimSide coords s f = .ok out) :
    out.head? = some ⟨s.point.1, s.point.2, 0⟩ ∧ out.getLast? = some ⟨f.point.1, f.point.2, 0⟩ := by
  unfold Mesh.trimSide at h
  simp only at h
  split_ifs at h
  all_goals
    obtain ⟨m, -, h2⟩ := Res.bind_eq_ok.1 h
    obtain rfl := Res.ok.inj h2
    exact ⟨rfl, by simp [List.getLast?_cons]⟩

/-- C258, the part that holds: the boundaries of an open circuit begin and end at the points closest to the requested start and
finish on the map, where degrees of longitude and latitude are equally long. On the ground they are shorter by `κ`, the cosine of
the latitude, so that the ends are the closest ones there at the equator only. -/
theorem C258_ends_partial (find : List (Coord ℝ) → Mesh.Flat ℝ → Mesh.Closest (Mesh.Flat ℝ)) (hf : SearchesMap find)
    (left right : List (Coord ℝ)) (h2l : 2 ≤ left.length) (h2r : 2 ≤ right.length) (start finish : Mesh.Flat ℝ) (n : Nat)
    (l r : List (Coord ℝ)) (h : (Request.openElements start finish n).coordinates find left right = .ok (l, r)) :
    EndsNearest 1 left l start finish ∧ EndsNearest 1 right r start finish := by
  simp only [Request.coordinates, Mesh.trim] at h
  split_ifs at h
  obtain ⟨l', h1, h⟩ := Res.bind_eq_ok.1 h
  obtain ⟨r', h3, h⟩ := Res.bind_eq_ok.1 h
  have e := Res.ok.inj h
  obtain rfl : l' = l := (Prod.mk.inj e).1
  obtain rfl : r' = r := (Prod.mk.inj e).2
  obtain ⟨a1, a2⟩ := trim_ends h1
  obtain ⟨b1, b2⟩ := trim_ends h3
  refine ⟨⟨fun a ha => ?_, fun a ha => ?_⟩, fun a ha => ?_, fun a ha => ?_⟩
  · rw [a1] at ha
    obtain rfl := Option.some.inj ha
    exact (hf left start h2l).1
  · rw [a2] at ha
    obtain rfl := Option.some.inj ha
    exact (hf left finish h2l).1
  · rw [b1] at ha
    obtain rfl := Option.some.inj ha
    exact (hf right start h2r).1
  · rw [b2] at ha
    obtain rfl := Option.some.inj ha
    exact (hf right finish h2r).1

/-- On a boundary that runs north-east, the closest point on the map is found in the middle of the segment. -/
theorem diagonal_find {find : List (Coord ℝ) → Mesh.Flat ℝ → Mesh.Closest (Mesh.Flat ℝ)} (hf : SearchesMap find) (x y u v : ℝ)
    (h0 : 0 < u + v) (h1 : u + v < 6) :
    find [⟨x, y, 0⟩, ⟨x + 3, y + 3, 0⟩] (x + u, y + v) = ⟨(x + (u + v) / 2, y + (u + v) / 2), 0, 1⟩ := by
  obtain ⟨⟨⟨i, a, b, ha, hb, t, ht0, ht1, hq⟩, hmin⟩, hidx⟩ := hf [⟨x, y, 0⟩, ⟨x + 3, y + 3, 0⟩] (x + u, y + v) (by simp)
  have hi : i = 0 := by
    match i with
    | 0 => rfl
    | i + 1 => simp at hb
  subst hi
  simp only [List.getElem?_cons_zero, List.getElem?_cons_succ, Option.some.injEq, zero_add] at ha hb
  subst ha hb
  simp only [add_sub_cancel_left] at hq
  have hm := hmin (x + (u + v) / 2, y + (u + v) / 2) ⟨0, _, _, rfl, rfl, (u + v) / 6, by linarith, by linarith, by
    simp only [add_sub_cancel_left]; exact Prod.ext (by ring) (by ring)⟩
  rw [hq] at hm
  simp only [apart2] at hm
  have ht : t = (u + v) / 6 := by
    have : (t - (u + v) / 6) ^ 2 ≤ 0 := by nlinarith
    have := pow_eq_zero_iff (two_ne_zero) |>.1 (le_antisymm this (sq_nonneg _))
    linarith
  have hp : (find [⟨x, y, 0⟩, ⟨x + 3, y + 3, 0⟩] (x + u, y + v)).point = (x + (u + v) / 2, y + (u + v) / 2) := by
    rw [hq, ht]
    exact Prod.ext (by simp only; ring) (by simp only; ring)
  generalize find [⟨x, y, 0⟩, ⟨x + 3, y + 3, 0⟩] (x + u, y + v) = w at hidx hp
  obtain ⟨point, front, back⟩ := w
  simp only at hidx hp
  subst hp
  rcases hidx with ⟨-, a, ha, e⟩ | ⟨h2, a, b, ha, hb, -⟩
  · exfalso
    have e1 := (Prod.mk.inj e).1
    match front with
    | 0 =>
      simp only [List.getElem?_cons_zero, Option.some.injEq] at ha
      subst ha
      simp only at e1
      linarith
    | 1 =>
      simp only [List.getElem?_cons_zero, List.getElem?_cons_succ, Option.some.injEq] at ha
      subst ha
      simp only at e1
      linarith
    | front + 2 => simp at ha
  · have h3 : front = 0 := by
      match front with
      | 0 => rfl
      | front + 1 => subst h2; simp at hb
    subst h3
    rw [h2]

/-- C258 is false away from the equator: at 60 degrees north, on a road that runs north-east, the left boundary does not begin
at the point that is closest to the requested start on the ground. The latitude of reference is that of the first right point. -/
theorem C258_false (find : List (Coord ℝ) → Mesh.Flat ℝ → Mesh.Closest (Mesh.Flat ℝ)) (hf : SearchesMap find) (n : Nat) :
    ∃ (left right : List (Coord ℝ)) (start finish : Mesh.Flat ℝ) (l r : List (Coord ℝ)) (o : Coord ℝ),
      (Request.openElements start finish n).coordinates find left right = .ok (l, r) ∧ r.head? = some o ∧
      ¬ EndsNearest (Real.cos (o.latitude * (Real.pi / 180))) left l start finish := by
  have f1 := diagonal_find hf 0 60 1 0 (by norm_num) (by norm_num)
  have f2 := diagonal_find hf 0 60 2 1 (by norm_num) (by norm_num)
  have f3 := diagonal_find hf 1 59 0 1 (by norm_num) (by norm_num)
  have f4 := diagonal_find hf 1 59 1 2 (by norm_num) (by norm_num)
  norm_num at f1 f2 f3 f4
  refine ⟨[⟨0, 60, 0⟩, ⟨3, 63, 0⟩], [⟨1, 59, 0⟩, ⟨4, 62, 0⟩], (1, 60), (2, 61), [⟨1 / 2, 121 / 2, 0⟩, ⟨3 / 2, 123 / 2, 0⟩],
    [⟨3 / 2, 119 / 2, 0⟩, ⟨5 / 2, 121 / 2, 0⟩], ⟨3 / 2, 119 / 2, 0⟩, ?_, rfl, ?_⟩
  · have o1 := Mesh.C132_inside (1, 60) (1 / 2, 121 / 2) (3 / 2, 119 / 2) (1 / 2) (by norm_num) (by norm_num) (by norm_num)
    have o2 := Mesh.C132_inside (2, 61) (3 / 2, 123 / 2) (5 / 2, 121 / 2) (1 / 2) (by norm_num) (by norm_num) (by norm_num)
    simp only [Request.coordinates, Mesh.trim]
    rw [f1, f2, f3, f4]
    rw [if_neg o1, if_neg o2]
    simp [Mesh.trimSide, mapRes, Res.bind]
  · intro h
    have h1 := (h.1 _ rfl).2
    obtain ⟨κ, hκ⟩ : ∃ κ, κ = Real.cos (119 / 2 * (Real.pi / 180)) := ⟨_, rfl⟩
    have hpi := Real.pi_pos
    have hlt : κ ^ 2 < 1 := by
      have := Real.sin_pos_of_pos_of_lt_pi (x := 119 / 2 * (Real.pi / 180)) (by positivity) (by linarith)
      have h' := Real.sin_sq_add_cos_sq (119 / 2 * (Real.pi / 180))
      rw [hκ]
      nlinarith
    simp only [← hκ] at h1
    obtain ⟨t, ht⟩ : ∃ t, t = -(1 - κ ^ 2) / (2 * (κ ^ 2 + 1)) := ⟨_, rfl⟩
    have hpos : 0 < κ ^ 2 + 1 := by positivity
    have ht' : 2 * (κ ^ 2 + 1) * t = -(1 - κ ^ 2) := by rw [ht]; field_simp
    have ht0 : -(1 / 2) ≤ t := by nlinarith [sq_nonneg κ]
    have ht1 : t < 0 := by nlinarith
    have := h1 (1 / 2 + t, 121 / 2 + t) ⟨0, _, _, rfl, rfl, (1 / 2 + t) / 3, by linarith, by linarith, by
      simp only; exact Prod.ext (by ring) (by ring)⟩
    simp only [apart2] at this
    nlinarith

/-! ### A search -/

/-- On every boundary some point is closest. -/
theorem nearest_exists (κ : ℝ) (coords : List (Coord ℝ)) (h2 : 2 ≤ coords.length) (p : Mesh.Flat ℝ) :
    ∃ w : Mesh.Flat ℝ × Nat, (∃ a b, coords[w.2]? = some a ∧ coords[w.2 + 1]? = some b ∧ Between a b w.1) ∧
      Nearest κ coords p w.1 := by
  have seg : ∀ a b : Coord ℝ, ∃ q, Between a b q ∧ ∀ q', Between a b q' → apart2 κ p q ≤ apart2 κ p q' := by
    intro a b
    obtain ⟨t, ht, hmin⟩ := (isCompact_Icc (a := (0 : ℝ)) (b := 1)).exists_isMinOn ⟨0, by simp⟩
      (f := fun t : ℝ => apart2 κ p (a.longitude + t * (b.longitude - a.longitude), a.latitude + t * (b.latitude - a.latitude)))
      (by unfold apart2; fun_prop)
    refine ⟨_, ⟨t, ht.1, ht.2, rfl⟩, ?_⟩
    rintro q' ⟨t', h0, h1, rfl⟩
    exact hmin (a := t') ⟨h0, h1⟩
  choose best hbest using seg
  obtain ⟨i, hi, hmin⟩ := Finset.exists_min_image (Finset.range (coords.length - 1))
    (fun i => apart2 κ p (best (coords.getD i ⟨0, 0, 0⟩) (coords.getD (i + 1) ⟨0, 0, 0⟩))) ⟨0, by simp; omega⟩
  rw [Finset.mem_range] at hi
  have ha : coords[i]? = some (coords.getD i ⟨0, 0, 0⟩) := by
    rw [List.getD_eq_getElem?_getD, List.getElem?_eq_getElem (by omega)]; rfl
  have hb : coords[i + 1]? = some (coords.getD (i + 1) ⟨0, 0, 0⟩) := by
    rw [List.getD_eq_getElem?_getD, List.getElem?_eq_getElem (by omega)]; rfl
  refine ⟨(best (coords.getD i ⟨0, 0, 0⟩) (coords.getD (i + 1) ⟨0, 0, 0⟩), i), ⟨_, _, ha, hb, (hbest _ _).1⟩,
    ⟨i, _, _, ha, hb, (hbest _ _).1⟩, ?_⟩
  rintro q' ⟨j, a, b, ha', hb', hq⟩
  have hj : j + 1 < coords.length := by
    by_contra hj
    rw [List.getElem?_eq_none (by omega)] at hb'
    cases hb'
  have := hmin j (by rw [Finset.mem_range]; omega)
  simp only [List.getD_eq_getElem?_getD, ha', hb', Option.getD_some] at this ⊢
  exact this.trans ((hbest a b).2 q' hq)

/-- The boundary as seen from `p`. -/
def seenFrom (p : Mesh.Flat ℝ) (coords : List (Coord ℝ)) : List (Coord ℝ) :=
  coords.map fun c => ⟨c.longitude - p.1, c.latitude - p.2, 0⟩

open Classical in
/-- A search for the closest point of a boundary on the map. -/
noncomputable def mapSearch (coords : List (Coord ℝ)) (p : Mesh.Flat ℝ) : Mesh.Closest (Mesh.Flat ℝ) :=
  if h : 2 ≤ (seenFrom p coords).length then
    let w := (nearest_exists 1 (seenFrom p coords) h (0, 0)).choose
    ⟨(w.1.1 + p.1, w.1.2 + p.2), w.2, w.2 + 1⟩
  else ⟨p, 0, 0⟩

theorem seenFrom_east (Δ : ℝ) (p : Mesh.Flat ℝ) (coords : List (Coord ℝ)) :
    seenFrom (eastFlat Δ p) (coords.map (east Δ)) = seenFrom p coords := by
  simp only [seenFrom, List.map_map]
  refine List.map_congr_left fun c _ => ?_
  simp [east, eastFlat]

theorem mapSearch_differences : LooksAtDifferences mapSearch := by
  intro Δ coords p
  unfold mapSearch
  simp only [seenFrom_east]
  split_ifs
  · simp [eastFlat, add_assoc]
  · rfl

theorem mapSearch_map : SearchesMap mapSearch := by
  intro coords p h2
  have h : 2 ≤ (seenFrom p coords).length := by simpa [seenFrom] using h2
  obtain ⟨⟨a, b, ha, hb, t, h0, h1, hq⟩, hnear⟩ := (nearest_exists 1 (seenFrom p coords) h (0, 0)).choose_spec
  have e : mapSearch coords p = ⟨((nearest_exists 1 (seenFrom p coords) h (0, 0)).choose.1.1 + p.1,
    (nearest_exists 1 (seenFrom p coords) h (0, 0)).choose.1.2 + p.2), (nearest_exists 1 (seenFrom p coords) h (0, 0)).choose.2,
    (nearest_exists 1 (seenFrom p coords) h (0, 0)).choose.2 + 1⟩ := dif_pos h
  rw [e]
  generalize (nearest_exists 1 (seenFrom p coords) h (0, 0)).choose = w at ha hb hq hnear
  simp only [seenFrom, List.getElem?_map, Option.map_eq_some_iff] at ha hb
  obtain ⟨a', ha', rfl⟩ := ha
  obtain ⟨b', hb', rfl⟩ := hb
  have hbt : Between a' b' (w.1.1 + p.1, w.1.2 + p.2) := by
    refine ⟨t, h0, h1, ?_⟩
    rw [hq]
    exact Prod.ext (by simp only; ring) (by simp only; ring)
  refine ⟨⟨⟨w.2, a', b', ha', hb', hbt⟩, ?_⟩, Or.inr ⟨rfl, a', b', ha', hb', hbt⟩⟩
  rintro q' ⟨j, c, d, hc, hd, t', g0, g1, rfl⟩
  have := hnear.2 (c.longitude - p.1 + t' * (d.longitude - c.longitude), c.latitude - p.2 + t' * (d.latitude - c.latitude))
    ⟨j, ⟨c.longitude - p.1, c.latitude - p.2, 0⟩, ⟨d.longitude - p.1, d.latitude - p.2, 0⟩, by simp [seenFrom, hc],
      by simp [seenFrom, hd], t', g0, g1, Prod.ext (by simp only; ring) (by simp only; ring)⟩
  simp only [apart2] at this ⊢
  convert this using 2 <;> ring

/-- C257 on an open circuit 10 degrees further east. -/
example (lib : Library) (opt : Optimiser) (st : Settings) (ratio R : ℝ) (k : Kind) (fuel : Nat) :
    preprocess lib mapSearch opt st ratio R k (.openElements (11, 60) (12, 61) 50) [⟨10, 60, 0⟩, ⟨13, 63, 0⟩]
        [⟨11, 59, 0⟩, ⟨14, 62, 0⟩] fuel =
      preprocess lib mapSearch opt st ratio R k (.openElements (1, 60) (2, 61) 50) [⟨0, 60, 0⟩, ⟨3, 63, 0⟩]
        [⟨1, 59, 0⟩, ⟨4, 62, 0⟩] fuel := by
  have := C257_east lib mapSearch mapSearch_differences opt st ratio R k (.openElements (1, 60) (2, 61) 50)
    [⟨0, 60, 0⟩, ⟨3, 63, 0⟩] [⟨1, 59, 0⟩, ⟨4, 62, 0⟩] 10 fuel
  norm_num [eastRequest, eastFlat, east] at this
  exact this

/-- C258 on a search that meets what is assumed, and a circuit that is accepted. -/
example (n : Nat) : ∃ (left right : List (Coord ℝ)) (start finish : Mesh.Flat ℝ) (l r : List (Coord ℝ)),
    (Request.openElements start finish n).coordinates mapSearch left right = .ok (l, r) ∧
    (2 ≤ left.length → 2 ≤ right.length → EndsNearest 1 left l start finish ∧ EndsNearest 1 right r start finish) := by
  obtain ⟨left, right, start, finish, l, r, o, h, -, -⟩ := C258_false mapSearch mapSearch_map n
  exact ⟨left, right, start, finish, l, r, h, fun h2l h2r => C258_ends_partial mapSearch mapSearch_map left right h2l h2r start finish n l r h⟩

end Verif.Fit
