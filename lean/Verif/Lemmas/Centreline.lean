import Verif.Spec.Centreline
import Verif.Props.Mesh
import Mathlib.Tactic.Linarith
import Mathlib.Tactic.Module
import Mathlib.Tactic.FieldSimp

set_option autoImplicit false

namespace Verif.Fit

open Verif.Road (Vec3)
open Verif.Preprocessor (len normV)

theorem normV_eq (a : Vec3) : normV a = len a := rfl

theorem distance_eq (a b : Vec3) : distance a b = len (b - a) := rfl

theorem len_nonneg (a : Vec3) : 0 ≤ len a := Real.sqrt_nonneg _

theorem len_sq (a : Vec3) : len a * len a = a.1 * a.1 + a.2.1 * a.2.1 + a.2.2 * a.2.2 := by
  unfold len
  rw [Real.mul_self_sqrt]
  · simp [Road.dot]
  · simp only [Road.dot]; nlinarith [mul_self_nonneg a.1, mul_self_nonneg a.2.1, mul_self_nonneg a.2.2]

theorem len_smul (t : ℝ) (ht : 0 ≤ t) (a : Vec3) : len (t • a) = t * len a := by
  have h := len_sq (t • a)
  have h' := len_sq a
  simp only [Prod.smul_fst, Prod.smul_snd, smul_eq_mul] at h
  have h2 : len (t • a) * len (t • a) = (t * len a) * (t * len a) := by rw [h]; linear_combination (-t * t) * h'
  exact (mul_self_inj (len_nonneg _) (mul_nonneg ht (len_nonneg _))).1 h2

theorem len_add_le (a b : Vec3) : len (a + b) ≤ len a + len b := by
  have ha := len_sq a
  have hb := len_sq b
  have hab := len_sq (a + b)
  simp only [Prod.fst_add, Prod.snd_add] at hab
  have h0a := len_nonneg a
  have h0b := len_nonneg b
  have hcs : a.1 * b.1 + a.2.1 * b.2.1 + a.2.2 * b.2.2 ≤ len a * len b := by
    refine abs_le_of_sq_le_sq' ?_ (mul_nonneg h0a h0b) |>.2
    have : (len a * len b) ^ 2 = (a.1 * a.1 + a.2.1 * a.2.1 + a.2.2 * a.2.2)
        * (b.1 * b.1 + b.2.1 * b.2.1 + b.2.2 * b.2.2) := by rw [← ha, ← hb]; ring
    rw [this]
    nlinarith [sq_nonneg (a.1 * b.2.1 - a.2.1 * b.1), sq_nonneg (a.1 * b.2.2 - a.2.2 * b.1),
      sq_nonneg (a.2.1 * b.2.2 - a.2.2 * b.2.1)]
  refine abs_le_of_sq_le_sq' ?_ (add_nonneg h0a h0b) |>.2
  nlinarith

theorem len_pos {a b : Vec3} (h : a ≠ b) : 0 < len (b - a) := by
  rcases (len_nonneg (b - a)).lt_or_eq with h' | h'
  · exact h'
  · exfalso
    have h2 := len_sq (b - a)
    rw [← h', mul_zero] at h2
    simp only [Prod.fst_sub, Prod.snd_sub] at h2
    apply h
    have e1 : b.1 - a.1 = 0 := by nlinarith [mul_self_nonneg (b.1 - a.1), mul_self_nonneg (b.2.1 - a.2.1), mul_self_nonneg (b.2.2 - a.2.2)]
    have e2 : b.2.1 - a.2.1 = 0 := by nlinarith [mul_self_nonneg (b.1 - a.1), mul_self_nonneg (b.2.1 - a.2.1), mul_self_nonneg (b.2.2 - a.2.2)]
    have e3 : b.2.2 - a.2.2 = 0 := by nlinarith [mul_self_nonneg (b.1 - a.1), mul_self_nonneg (b.2.1 - a.2.1), mul_self_nonneg (b.2.2 - a.2.2)]
    exact Prod.ext (by linarith) (Prod.ext (by linarith) (by linarith))

theorem perimeter_nonneg : ∀ line : List Vec3, 0 ≤ perimeter line
  | [] => le_rfl
  | [_] => le_rfl
  | _ :: b :: l => add_nonneg (len_nonneg _) (perimeter_nonneg (b :: l))

/-! ### Arclengths of the vertices -/

theorem arclengthsFrom_length : ∀ (line : List Vec3) (s : ℝ),
    (Mesh.arclengthsFrom distance s line).length = line.length
  | [], _ => rfl
  | [_], _ => rfl
  | _ :: b :: l, s => by simp [Mesh.arclengthsFrom, arclengthsFrom_length (b :: l)]

theorem arclengthsFrom_get : ∀ (line : List Vec3) (s : ℝ) (j : Nat), j < line.length →
    (Mesh.arclengthsFrom distance s line)[j]? = some (s + perimeter (line.take (j + 1)))
  | [], _, j, h => by simp at h
  | [_], s, j, h => by
    obtain rfl : j = 0 := by simpa using h
    simp [Mesh.arclengthsFrom, perimeter]
  | _ :: _ :: _, s, 0, _ => by simp [Mesh.arclengthsFrom, perimeter]
  | a :: b :: l, s, j + 1, h => by
    have := arclengthsFrom_get (b :: l) (s + distance a b) j (by simpa using h)
    rw [Mesh.arclengthsFrom, List.getElem?_cons_succ, this]
    simp only [List.take_succ_cons, perimeter, distance_eq]
    congr 1
    ring

theorem perimeter_take_succ : ∀ (line : List Vec3) (j : Nat) (a b : Vec3), line[j]? = some a →
    line[j + 1]? = some b → perimeter (line.take (j + 2)) = perimeter (line.take (j + 1)) + len (b - a)
  | [], _, _, _, h, _ => by simp at h
  | [x], j, a, b, h, h' => by simp at h'
  | x :: y :: l, 0, a, b, h, h' => by
    simp only [List.getElem?_cons_zero, Option.some.injEq, zero_add, List.getElem?_cons_succ] at h h'
    subst h h'
    simp [perimeter]
  | x :: y :: l, j + 1, a, b, h, h' => by
    have := perimeter_take_succ (y :: l) j a b (by simpa using h) (by simpa using h')
    simp only [List.take_succ_cons, perimeter] at this ⊢
    linarith

theorem lengthOf_arclengths (line : List Vec3) (h : line ≠ []) :
    lengthOf (Mesh.arclengthsFrom distance 0 line) = perimeter line := by
  have hl : 0 < line.length := List.length_pos_of_ne_nil h
  have := arclengthsFrom_get line 0 (line.length - 1) (by omega)
  rw [Nat.sub_add_cancel hl, List.take_length, zero_add] at this
  unfold lengthOf
  rw [List.getLastD_eq_getLast?, List.getLast?_eq_getElem?, arclengthsFrom_length, this]
  rfl

theorem arclengthsFrom_increasing : ∀ (line : List Vec3) (s : ℝ), Moving line →
    (Mesh.arclengthsFrom distance s line).Pairwise (· < ·) ∧
      ∀ x ∈ Mesh.arclengthsFrom distance s line, s ≤ x
  | [], _, _ => by simp [Mesh.arclengthsFrom]
  | [_], _, _ => by simp [Mesh.arclengthsFrom]
  | a :: b :: l, s, h => by
    have hab : 0 < distance a b := len_pos (h 0 a b rfl rfl)
    have ih := arclengthsFrom_increasing (b :: l) (s + distance a b)
      fun j x y hx hy => h (j + 1) x y (by simpa using hx) (by simpa using hy)
    simp only [Mesh.arclengthsFrom, List.pairwise_cons, List.mem_cons, forall_eq_or_imp, le_refl, true_and]
    exact ⟨⟨fun x hx => by linarith [ih.2 x hx], ih.1⟩, fun x hx => by linarith [ih.2 x hx]⟩

/-- Every value between the ends of an increasing list is between two consecutive entries. -/
theorem between : ∀ (s : List ℝ) (a b : ℝ) (x : ℝ), 2 ≤ s.length → s.head? = some a →
    s.getLast? = some b → a ≤ x → x ≤ b →
    ∃ (j : Nat) (u v : ℝ), s[j]? = some u ∧ s[j + 1]? = some v ∧ u ≤ x ∧ x ≤ v
  | [], _, _, _, h, _, _, _, _ => by simp at h
  | [_], _, _, _, h, _, _, _, _ => by simp at h
  | [u, v], a, b, x, _, ha, hb, h1, h2 => by
    simp only [List.head?_cons, Option.some.injEq, List.getLast?_cons_cons, List.getLast?_singleton] at ha hb
    subst ha hb
    exact ⟨0, u, v, rfl, rfl, h1, h2⟩
  | u :: v :: w :: l, a, b, x, _, ha, hb, h1, h2 => by
    simp only [List.head?_cons, Option.some.injEq] at ha
    subst ha
    rcases le_total x v with hv | hv
    · exact ⟨0, u, v, rfl, rfl, h1, hv⟩
    · obtain ⟨j, u', v', h3, h4, h5, h6⟩ := between (v :: w :: l) v b x (by simp) rfl
        (by simpa using hb) hv h2
      exact ⟨j + 1, u', v', by simpa using h3, by simpa using h4, h5, h6⟩

/-- The curve through a moving line at an arclength within it: the segment and the proportion, the same
for any values given at the vertices. -/
theorem linear_divides {linear : List ℝ → List Vec3 → ℝ → Vec3} (hl : Interpolates linear)
    (line : List Vec3) (h2 : 2 ≤ line.length) (hm : Moving line) (x : ℝ) (h0 : 0 ≤ x)
    (hx : x ≤ perimeter line) :
    ∃ (j : Nat) (t : ℝ), 0 ≤ t ∧ t ≤ 1 ∧ Arclength line j t x ∧ j + 1 < line.length ∧
      ∀ values : List Vec3, values.length = line.length →
        Divides values j t (linear (Mesh.arclengthsFrom distance 0 line) values x) := by
  have hne : line ≠ [] := by rintro rfl; simp at h2
  have hlen := arclengthsFrom_length line 0
  have hhead : (Mesh.arclengthsFrom distance 0 line).head? = some 0 := by
    rw [List.head?_eq_getElem?, arclengthsFrom_get line 0 0 (by omega)]
    cases line with
    | nil => simp at h2
    | cons a l => simp [perimeter]
  have hlast : (Mesh.arclengthsFrom distance 0 line).getLast? = some (perimeter line) := by
    rw [List.getLast?_eq_getElem?, hlen, arclengthsFrom_get line 0 _ (by omega),
      Nat.sub_add_cancel (by omega), List.take_length, zero_add]
  obtain ⟨j, u, v, hu, hv, hux, hxv⟩ := between _ 0 _ x (by rw [hlen]; exact h2) hhead hlast h0 hx
  have hj : j + 1 < line.length := by
    have := (List.getElem?_eq_some_iff.1 hv).1
    rwa [hlen] at this
  have huj := arclengthsFrom_get line 0 j (by omega)
  have hvj := arclengthsFrom_get line 0 (j + 1) hj
  have ha : line[j]? = some line[j] := List.getElem?_eq_getElem _
  have hb : line[j + 1]? = some line[j + 1] := List.getElem?_eq_getElem _
  have hstep := perimeter_take_succ line j _ _ ha hb
  have hpos := len_pos (hm j _ _ ha hb)
  rw [hu, zero_add, Option.some.injEq] at huj
  rw [hv, zero_add, Option.some.injEq] at hvj
  have hvu : v - u = len (line[j + 1] - line[j]) := by rw [hvj, huj]; linarith
  have hd : 0 < v - u := by rw [hvu]; exact hpos
  refine ⟨j, (x - u) / (v - u), div_nonneg (by linarith) hd.le, (div_le_one hd).2 (by linarith),
    ⟨_, _, ha, hb, ?_⟩, hj, fun values hvals => ?_⟩
  · rw [← huj, ← hvu, div_mul_cancel₀ _ hd.ne']; ring
  · have hpj : values[j]? = some values[j] := List.getElem?_eq_getElem (by omega)
    have hqj : values[j + 1]? = some values[j + 1] := List.getElem?_eq_getElem (by omega)
    exact ⟨_, _, hpj, hqj, hl _ _ (by rw [hlen, hvals]) (arclengthsFrom_increasing line 0 hm).1 j u v _ _ hu hv
      hpj hqj x hux hxv⟩

/-! ### Distances along a line -/

theorem chord_vertices : ∀ (line : List Vec3) (j k : Nat) (a b : Vec3), j ≤ k → line[j]? = some a →
    line[k]? = some b → len (b - a) ≤ perimeter (line.take (k + 1)) - perimeter (line.take (j + 1)) := by
  intro line j k a b hjk ha hb
  obtain ⟨d, rfl⟩ := Nat.exists_eq_add_of_le hjk
  induction d generalizing b with
  | zero =>
    rw [Nat.add_zero] at hb ⊢
    obtain rfl : a = b := by rw [ha] at hb; exact Option.some.inj hb
    have : len (a - a) = 0 := by
      have := len_smul 0 le_rfl a
      rw [zero_smul, zero_mul] at this
      rw [sub_self]; exact this
    rw [this, sub_self]
  | succ d ih =>
    have hlt := (List.getElem?_eq_some_iff.1 hb).1
    have hc : line[j + d]? = some line[j + d] := List.getElem?_eq_getElem (by omega)
    have h1 := ih line[j + d] (by omega) hc
    have h2 := perimeter_take_succ line (j + d) _ b hc hb
    have h3 := len_add_le (line[j + d] - a) (b - line[j + d])
    have h4 : line[j + d] - a + (b - line[j + d]) = b - a := by abel
    rw [h4] at h3
    have : perimeter (line.take (j + (d + 1) + 1)) = perimeter (line.take (j + d + 2)) := rfl
    rw [this, h2]
    linarith

/-- Two points of a line are not farther from each other than along the line. -/
theorem chord_le {line : List Vec3} {s s' : ℝ} {p p' : Vec3} (h : PointAt line s p)
    (h' : PointAt line s' p') (hs : s ≤ s') : len (p' - p) ≤ s' - s := by
  obtain ⟨j, t, ht0, ht1, ⟨a, b, ha, hb, rfl⟩, ⟨a1, b1, ha1, hb1, rfl⟩⟩ := h
  obtain ⟨k, u, hu0, hu1, ⟨c, d, hc, hd, rfl⟩, ⟨c1, d1, hc1, hd1, rfl⟩⟩ := h'
  rw [ha] at ha1; rw [hb] at hb1; rw [hc] at hc1; rw [hd] at hd1
  obtain rfl := Option.some.inj ha1; obtain rfl := Option.some.inj hb1
  obtain rfl := Option.some.inj hc1; obtain rfl := Option.some.inj hd1
  have hbj := perimeter_take_succ line j a b ha hb
  have hdk := perimeter_take_succ line k c d hc hd
  have lab := len_nonneg (b - a)
  have lcd := len_nonneg (d - c)
  have key : ∀ (x y z : Vec3), len (z - x) ≤ len (y - x) + len (z - y) := fun x y z => by
    have := len_add_le (y - x) (z - y)
    rwa [show y - x + (z - y) = z - x by abel] at this
  rcases Nat.lt_trichotomy j k with hjk | rfl | hjk
  · have h1 := chord_vertices line (j + 1) k b c hjk hb hc
    have e1 : len (b - (a + t • (b - a))) = (1 - t) * len (b - a) := by
      rw [← len_smul (1 - t) (by linarith)]; congr 1; module
    have e2 : len (c + u • (d - c) - c) = u * len (d - c) := by
      rw [← len_smul u hu0]; congr 1; module
    have h2 := key (a + t • (b - a)) b (c + u • (d - c))
    have h3 := key b c (c + u • (d - c))
    have : perimeter (line.take (j + 1 + 1)) = perimeter (line.take (j + 2)) := rfl
    rw [this, hbj] at h1
    rw [e1] at h2; rw [e2] at h3
    linarith
  · obtain rfl : a = c := by rw [ha] at hc; exact Option.some.inj hc
    obtain rfl : b = d := by rw [hb] at hd; exact Option.some.inj hd
    rcases le_total t u with htu | htu
    · have : len (a + u • (b - a) - (a + t • (b - a))) = (u - t) * len (b - a) := by
        rw [← len_smul (u - t) (by linarith)]; congr 1; module
      rw [this]; linarith
    · have h0 : (t - u) * len (b - a) = 0 :=
        le_antisymm (by linarith) (mul_nonneg (by linarith) lab)
      have : len (a + u • (b - a) - (a + t • (b - a))) = (t - u) * len (b - a) := by
        have e : a + u • (b - a) - (a + t • (b - a)) = (t - u) • (a - b) := by module
        rw [e, len_smul _ (by linarith)]
        congr 1
        unfold len Road.dot
        simp only [Prod.fst_sub, Prod.snd_sub]
        congr 1; ring
      rw [this, h0]; linarith
  · -- the second point is on an earlier segment: both are the same vertex
    have h1 := chord_vertices line (k + 1) j d a hjk hd ha
    have l1 := len_nonneg (a - d)
    have : perimeter (line.take (k + 1 + 1)) = perimeter (line.take (k + 2)) := rfl
    rw [this, hdk] at h1
    have n1 : 0 ≤ (1 - u) * len (d - c) := mul_nonneg (by linarith) lcd
    have n2 : 0 ≤ t * len (b - a) := mul_nonneg ht0 lab
    have z1 : (1 - u) * len (d - c) = 0 := by linarith
    have z2 : t * len (b - a) = 0 := by linarith
    have z3 : len (a - d) = 0 := by linarith
    have e1 : len (a + t • (b - a) - a) = 0 := by
      rw [show a + t • (b - a) - a = t • (b - a) by module, len_smul t ht0, z2]
    have e2 : len (d - (c + u • (d - c))) = 0 := by
      rw [show d - (c + u • (d - c)) = (1 - u) • (d - c) by module, len_smul _ (by linarith), z1]
    have sym : ∀ x y : Vec3, len (x - y) = len (y - x) := fun x y => by
      unfold len Road.dot
      simp only [Prod.fst_sub, Prod.snd_sub]
      congr 1; ring
    have k1 := key (a + t • (b - a)) a (c + u • (d - c))
    have k2 := key a d (c + u • (d - c))
    rw [sym a, e1] at k1
    rw [sym d a, z3, sym (c + u • (d - c)) d, e2] at k2
    linarith

/-! ### Nodes -/

/-- What a mesh along a line of length `L` looks like, the closing node included. -/
structure Proper {V : Type*} (curve : ℝ → V) (L : ℝ) (m : List (ℝ × V)) : Prop where
  many : 2 ≤ m.length
  first : (m.map Prod.fst).head? = some 0
  last : (m.map Prod.fst).getLast? = some L
  increasing : (m.map Prod.fst).Pairwise (· < ·)
  values : ∀ p ∈ m, p.2 = curve p.1

theorem sizeLoop_mem (find : Vec3 → Mesh.Closest Vec3) (p : Mesh.Closest Vec3) (small large : ℝ) :
    ∀ (rest : List (Vec3 × ℝ)) (d : ℝ), small ≤ d ∧ d ≤ large →
      (∀ b ∈ rest, small ≤ b.2 ∧ b.2 ≤ large) →
      small ≤ Mesh.sizeLoop distance find p d rest ∧ Mesh.sizeLoop distance find p d rest ≤ large
  | [], d, h, _ => h
  | (v, e) :: rest, d, h, hr => by
    unfold Mesh.sizeLoop
    split
    · exact h
    · exact sizeLoop_mem find p small large rest e (hr (v, e) (by simp))
        fun b hb => hr b (by simp [hb])

theorem along_proper {V : Type*} (lib : Library) (closed : Bool) (ratio : ℝ) (how : Meshing)
    (line : List Vec3) (point : V → Vec3) (L : ℝ) (hL : 0 < L) (curve : ℝ → V) (h : Suits how ratio L) :
    ∃ fuel m, along lib closed ratio how line point L curve fuel = some (.ok m) ∧ Proper curve L m ∧
      ∀ n, how = .equispaced n → m = (Mesh.linspace L n).map fun s => (s, curve s) := by
  have conv : ∀ m : List (ℝ × V), 7 ≤ m.length → m.head? = some (0, curve 0) →
      m.getLast? = some (L, curve L) → (m.map Prod.fst).Pairwise (· < ·) →
      (∀ p ∈ m, p.2 = curve p.1) → Proper curve L m := fun m h1 h2 h3 h4 h5 =>
    ⟨by omega, by rw [List.head?_map, h2]; rfl, by rw [List.getLast?_map, h3]; rfl, h4, h5⟩
  cases how with
  | equispaced n =>
    have hn : 0 < n := h
    have hq := Mesh.C128_equispaced L hL n hn
    have e : ((Mesh.linspace L n).map fun s => (s, curve s)).map Prod.fst = Mesh.linspace L n := by
      rw [List.map_map]; exact List.map_id _
    refine ⟨0, (Mesh.linspace L n).map fun s => (s, curve s), by simp [along, hn.ne'], ⟨?_, ?_, ?_, ?_, ?_⟩, ?_⟩
    · rw [List.length_map, hq.1]; omega
    · rw [e]; exact hq.2.1
    · rw [e]; exact hq.2.2.1
    · rw [e]; exact hq.2.2.2.1
    · intro p hp
      obtain ⟨s, -, rfl⟩ := List.mem_map.1 hp
      rfl
    · intro n' hn'; cases hn'; rfl
  | breakpoints sizes =>
    obtain ⟨hne, hr, small, large, hs, hall, h5⟩ := h
    cases sizes with
    | nil => exact absurd rfl hne
    | cons b rest =>
      obtain ⟨v, d⟩ := b
      have hd := hall (v, d) (by simp)
      obtain ⟨fuel, m, hm, h7, hh, hl, hp, hv, -⟩ := Mesh.C128_mesh .breakpoints
        (fun s => match Mesh.sizeAt distance (fun p =>
            let r := lib.find line p closed 0 1000000000000000000
            (⟨r.1, r.2.2.1, r.2.2.2⟩ : Mesh.Closest Vec3)) (point (curve s)) ((v, d) :: rest) with
          | .ok size => size
          | _ => 0) ratio d L small large curve hs hr
        (fun s _ _ => sizeLoop_mem _ _ small large rest d hd fun b hb => hall b (by simp [hb]))
        hd.1 hd.2 h5
      exact ⟨fuel, m, hm, conv m h7 hh hl hp hv, fun n hn => by cases hn⟩
  | distribution f sEnd dsEnd =>
    obtain ⟨hr, small, large, hs, hf, he1, he2, h5⟩ := h
    have h0 := hf 0 le_rfl (Or.inr rfl)
    obtain ⟨fuel, m, hm, h7, hh, hl, hp, hv, -⟩ := Mesh.C128_mesh .distribution
      (Mesh.distributionRequest f sEnd dsEnd) ratio (f 0) L small large curve hs hr
      (fun s hs0 _ => by
        unfold Mesh.distributionRequest
        split
        · next hlt => exact hf s hs0 (Or.inl hlt)
        · exact ⟨he1, he2⟩) h0.1 h0.2 h5
    exact ⟨fuel, m, hm, conv m h7 hh hl hp hv, fun n hn => by cases hn⟩

theorem along_fuel {V : Type*} (lib : Library) (closed : Bool) (ratio : ℝ) (how : Meshing)
    (line : List Vec3) (point : V → Vec3) (L : ℝ) (curve : ℝ → V) (fuel more : Nat)
    (r : Res (List (ℝ × V))) (h : along lib closed ratio how line point L curve fuel = some r) :
    along lib closed ratio how line point L curve (fuel + more) = some r := by
  cases how with
  | equispaced n => exact h
  | breakpoints sizes =>
    cases sizes with
    | nil => exact h
    | cons b rest => exact Mesh.C128_fuel _ _ _ _ _ _ _ _ _ h
  | distribution f sEnd dsEnd => exact Mesh.C128_fuel _ _ _ _ _ _ _ _ _ h

theorem andThen_fuel {α β : Type*} {x y : Option (Res α)} {f g : α → Option (Res β)} {r : Res β}
    (h : andThen x f = some r) (hx : ∀ a, x = some a → y = some a)
    (hf : ∀ a b, f a = some b → g a = some b) : andThen y g = some r := by
  cases hxx : x with
  | none => rw [hxx] at h; cases h
  | some a =>
    rw [hxx] at h
    rw [hx a hxx]
    cases a with
    | ok a => exact hf _ _ h
    | throw => exact h
    | ub => exact h

/-! ### The searches -/

theorem follow_length (search : Vec3 → Nat → Vec3 × ℝ × Nat × Nat) :
    ∀ (l : List Vec3) (i : Nat), (follow search i l).length = l.length
  | [], _ => rfl
  | _ :: l, _ => by simp [follow, follow_length search l]

theorem follow_get (search : Vec3 → Nat → Vec3 × ℝ × Nat × Nat) :
    ∀ (l : List Vec3) (i k : Nat) (p : Vec3), l[k]? = some p →
      ∃ i', (follow search i l)[k]? = some ((search p i').1, (search p i').2.1)
  | [], _, _, _, h => by simp at h
  | a :: l, i, 0, p, h => by
    obtain rfl : a = p := by simpa using h
    exact ⟨i, by simp [follow]⟩
  | a :: l, i, k + 1, p, h => by
    obtain ⟨i', hi'⟩ := follow_get search l _ k p (by simpa using h)
    exact ⟨i', by simpa [follow] using hi'⟩

theorem closeLine_eq {V : Type*} (closed : Bool) (l : List V) (h : l ≠ []) :
    closeLine closed l = .ok (vertices closed l) := by
  cases closed with
  | false => rfl
  | true =>
    cases l with
    | nil => exact absurd rfl h
    | cons a l => rfl

theorem vertices_map {V W : Type*} (closed : Bool) (f : V → W) (l : List V) :
    vertices closed (l.map f) = (vertices closed l).map f := by
  cases closed
  · rfl
  · simp [vertices, List.map_take]

end Verif.Fit

namespace Verif.Fit

open Verif.Road (Vec3)
open Verif.Preprocessor (len normV)

/-- The nodes that are kept of a proper mesh. -/
theorem Proper.kept {V : Type*} {curve : ℝ → V} {L : ℝ} {m : List (ℝ × V)} (h : Proper curve L m)
    (closed : Bool) :
    dropClosing closed m ≠ [] ∧
    ((dropClosing closed m).map Prod.fst).head? = some 0 ∧
    ((dropClosing closed m).map Prod.fst).Pairwise (· < ·) ∧
    (closed = false → ((dropClosing closed m).map Prod.fst).getLast? = some L) ∧
    (closed = true → ∀ s ∈ (dropClosing closed m).map Prod.fst, s < L) ∧
    (∀ p ∈ dropClosing closed m, p.2 = curve p.1 ∧ 0 ≤ p.1 ∧ p.1 ≤ L) := by
  have hin : ∀ p ∈ m, 0 ≤ p.1 ∧ p.1 ≤ L := by
    intro p hp
    have hp' : p.1 ∈ m.map Prod.fst := List.mem_map_of_mem hp
    constructor
    · have hinc := h.increasing
      have hf := h.first
      cases hm : m.map Prod.fst with
      | nil => rw [hm] at hp'; simp at hp'
      | cons a l =>
        rw [hm] at hinc hp' hf
        obtain rfl : a = 0 := by simpa using hf
        rcases List.mem_cons.1 hp' with h1 | h1
        · exact h1.ge
        · exact ((List.pairwise_cons.1 hinc).1 _ h1).le
    · have hla := h.last
      obtain ⟨l, hm⟩ := List.getLast?_eq_some_iff.1 hla
      have hinc := h.increasing
      rw [hm] at hp' hinc
      rcases List.mem_append.1 hp' with h1 | h1
      · exact ((List.pairwise_append.1 hinc).2.2 _ h1 L (by simp)).le
      · exact (List.mem_singleton.1 h1).le
  cases closed with
  | false =>
    refine ⟨?_, h.first, h.increasing, fun _ => h.last, fun hh => Bool.noConfusion hh, ?_⟩
    · intro he
      have hm := h.many
      change m = [] at he
      rw [he] at hm; simp at hm
    · exact fun p hp => ⟨h.values p hp, hin p hp⟩
  | true =>
    have hm := h.many
    have hd : dropClosing true m = m.dropLast := rfl
    obtain ⟨l, hl⟩ := List.getLast?_eq_some_iff.1 h.last
    have hmap : m.dropLast.map Prod.fst = l := by
      rw [List.map_dropLast, hl]; simp
    have hinc := h.increasing
    rw [hl] at hinc
    have hmem : ∀ p ∈ m.dropLast, p ∈ m := fun p hp => List.mem_of_mem_dropLast hp
    rw [hd, hmap]
    refine ⟨?_, ?_, (List.pairwise_append.1 hinc).1, fun hh => Bool.noConfusion hh, fun _ s hs =>
      (List.pairwise_append.1 hinc).2.2 s hs L (by simp), fun p hp => ⟨h.values p (hmem p hp), hin p (hmem p hp)⟩⟩
    · intro he
      have := congrArg List.length he
      simp only [List.length_dropLast, List.length_nil] at this
      omega
    · have hf := h.first
      rw [hl] at hf
      cases l with
      | nil =>
        have := congrArg List.length hl
        simp at this
        omega
      | cons a l => simpa using hf

theorem dropClosing_linspace {V : Type*} (closed : Bool) (L : ℝ) (n : Nat) (curve : ℝ → V) :
    dropClosing closed ((Mesh.linspace L n).map fun s => (s, curve s))
      = ((List.range (if closed then n else n + 1)).map fun (i : Nat) => (L * (i : ℝ) / (n : ℝ), curve (L * (i : ℝ) / (n : ℝ)))) := by
  unfold Mesh.linspace
  cases closed with
  | false => simp [dropClosing]
  | true =>
    simp only [dropClosing, if_true, List.map_map]
    rw [← List.map_dropLast, List.range_succ, List.dropLast_concat]
    rfl

theorem vertices_length {V : Type*} (closed : Bool) (l : List V) (h : l ≠ []) :
    (vertices closed l).length = if closed then l.length + 1 else l.length := by
  cases closed with
  | false => rfl
  | true =>
    have := List.length_pos_of_ne_nil h
    simp [vertices]; omega

theorem perimeter_pos {line : List Vec3} (h2 : 2 ≤ line.length) (hm : Moving line) : 0 < perimeter line := by
  match line, h2 with
  | a :: b :: l, _ =>
    have := len_pos (hm 0 a b rfl rfl)
    exact add_pos_of_pos_of_nonneg this (perimeter_nonneg (b :: l))

end Verif.Fit
